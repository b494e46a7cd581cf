import Verif.Proofs.CRelease
import Verif.Props.Source
import Verif.Props.SourceGen
import Verif.Props.SourceAddr

/-
C88: src/Makefile compiles the library with -DNDEBUG, so that `assert` does nothing.  `release P` are the functions of `P` without their assertions.
What functions do when the assertions are checked, they do as well when they are not.
-/

namespace Props
open C Spec CLang Tables

variable {P : Prog} {G : Name → Option Cell} {mem mem' : Nat → Obj} {g : Name} {vs : List Val}

/-- A call that returns when assertions are checked has the same effect when they are not. -/
theorem C88_calls (h : Calls P G g vs mem mem') : Calls (release P) G g vs mem mem' := h.release

/-- The same for a function with a result. -/
theorem C88_returns {v : Val} (h : Returns P G g vs mem v mem') : Returns (release P) G g vs mem v mem' := h.release

/-- The same for a function that takes addresses of its variables. -/
theorem C88_returns_at {v : Val} {sp : Nat} (h : ReturnsAt P G sp g vs mem v mem') : ReturnsAt (release P) G sp g vs mem v mem' := h.release

/-- A product that is correct when assertions are checked is correct when they are not. -/
theorem C88_multiplies {k : Nat} {N : ConstNames} {ty : Ty} {T : Consts} {lo hi : Int} (h : Multiplies k P N ty T lo hi g) :
    Multiplies k (release P) N ty T lo hi g := by
  intro G mem oc oa ob c a b h1 h2 h3 h4 h5 h6 h7 h8 h9 h10 h11 h12 h13
  obtain ⟨mem', c', h14, h15⟩ := h G mem oc oa ob c a b h1 h2 h3 h4 h5 h6 h7 h8 h9 h10 h11 h12 h13
  exact ⟨mem', c', h14.release, h15⟩

/-- A transform changes its array in the same way. -/
theorem C88_changes {N : ConstNames} {ty : Ty} {T : Consts} {F : Array Int → M (Array Int)} (h : Changes P N ty T g F) : Changes (release P) N ty T g F := by
  intro G mem o a a' h1 h2 h3 h4
  obtain ⟨mem', h5, h6⟩ := h G mem o a a' h1 h2 h3 h4
  exact ⟨mem', h5.release, h6⟩

theorem C88_computes {ty : Ty} {r : Int} (h : Computes P g vs ty r) : Computes (release P) g vs ty r := fun G mem => (h G mem).release

theorem C88_decides {p : Prop} (h : Decides P g vs p) : Decides (release P) g vs p :=
  fun G mem => ⟨fun hp => ((h G mem).1 hp).release, fun hp => ((h G mem).2 hp).release⟩

theorem C88_finds {p : Nat → Prop} (h : Finds P g vs p) : Finds (release P) g vs p := by
  intro G mem o z hm
  rcases h G mem o z hm with ⟨y, hy, h1⟩ | ⟨hy, h1⟩
  · exact Or.inl ⟨y, hy, h1.release⟩
  · exact Or.inr ⟨hy, h1.release⟩

theorem C88_fills {n : Nat} {p : Nat → Nat → Prop} (h : Fills P g n vs p) : Fills (release P) g n vs p := by
  intro G mem o a hm hn
  obtain ⟨a', h1, h2, h3⟩ := h G mem o a hm hn
  exact ⟨a', h1, h2, h3.release⟩

theorem C88_maximizes {a b : Int} {F : Int → Int} (h : Maximizes P g vs a b F) : Maximizes (release P) g vs a b F := by
  intro G mem o z hm
  obtain ⟨r, m, h1, h2⟩ := h G mem o z hm
  exact ⟨r, m, h1.release, h2⟩

theorem C88_minimizes {a b : Int} {F : Int → Int} (h : Minimizes P g vs a b F) : Minimizes (release P) g vs a b F := by
  intro G mem o z hm
  obtain ⟨r, m, h1, h2⟩ := h G mem o z hm
  exact ⟨r, m, h1.release, h2⟩

/-- The five products of src/ntt_red1024.c, as written, compiled with -DNDEBUG. -/
theorem C88_ntt_red1024 {xpsi : Int} (h : GoodParams 10 1024 xpsi) {buf : Nat → Array Nat} (hbuf : ∀ n, (buf n).size = n) {t : RedTables}
    (ht : make_red_tables buf 1024 xpsi = .ok t) :
    ∃ P, readAll [Src.ntt_red_text, Src.ntt_red1024_h_text, Src.ntt_red1024_c_text] = some P ∧
      ∀ g ∈ [n!"ntt_red1024_product1", n!"ntt_red1024_product2", n!"ntt_red1024_product3", n!"ntt_red1024_product4", n!"ntt_red1024_product5"],
        Multiplies 10 (release P) redNames1024 .i16 (redConsts t) 0 12288 g := by
  obtain ⟨P, hP, h1, _⟩ := C82_ntt_red1024 h hbuf ht
  exact ⟨P, hP, fun g hg => C88_multiplies (h1 g hg)⟩

/-- The converse does not hold: with assertions `min_red_mul_interval(-5000, 5000, 0, 1, &m, &w)`, as written in src/red_bounds.c, fails one;
without them it returns -1 and stores 4096 and 1. -/
theorem C88_assertion :
    let vs : List Val := [.int .i64 (-5000), .int .i64 5000, .int .i64 0, .int .i64 1, .ptr 3 0 1, .ptr 4 0 1]
    (callValueAt boundsText (fun _ => none) 10 500 n!"min_red_mul_interval" vs fun _ => ⟨.i64, #[0]⟩).map (fun r => r.1) = .error .assertFail ∧
    (callValueAt (release boundsText) (fun _ => none) 10 500 n!"min_red_mul_interval" vs fun _ => ⟨.i64, #[0]⟩).map (fun r => (r.1, (r.2 3).data, (r.2 4).data)) =
      .ok (.int .i64 (-1), #[4096], #[1]) := by
  rw [boundsText_eq]; decide +kernel

/-! The functions without assertions are others than those with assertions, and a case that meets the hypotheses. -/

example : Src.ntt_red.length = (release Src.ntt_red).length ∧ (release Src.red_bounds).lookup n!"max_red" ≠ Src.red_bounds.lookup n!"max_red" := by decide +kernel
example : Maximizes (release (readSome Src.red_bounds_text)) n!"max_red" [.int .i64 (-5000), .int .i64 10000] (-5000) 10000 red :=
  C88_maximizes (C87_max_red _ _ _ (by decide) (by decide) (by decide))

end Props
