import Verif.Model.SharedAsm
import Verif.Model.AsmPolyProducts

/-
The AVX2 products on references: the functions of `Verif/Model/AsmPolyProducts.lean` with the accesses of
`Verif/Model/SharedAsm.lean`.  `tb` gives the reference of each table.
-/

namespace Shared.AsmProducts
open Tables

variable (t : RedTables) (tb : String → Ref) (n : Nat)

/-- src/ntt_red_asm16.c:17-39 (also 256, 512) -/
def product1 (sh : Bool) (c a b : Ref) : Prog (Ref × Ref × Ref) :=
  AsmPoly.product1 shared (fun x _ => tb x) t n sh c a b

/-- src/ntt_red_asm1024.c:17-37 -/
def product1_1024 (c a b : Ref) : Prog (Ref × Ref × Ref) :=
  AsmPoly.product1_1024 shared (fun x _ => tb x) t n c a b

/-- src/ntt_red_asm1024.c:39-61, src/ntt_red_asm16.c:41-63 -/
def product2 (sh : Bool) (c a b : Ref) : Prog (Ref × Ref × Ref) :=
  AsmPoly.product2 shared (fun x _ => tb x) t n sh c a b

/-- src/ntt_red_asm1024.c:63-85, src/ntt_red_asm16.c:65-87 -/
def product3 (sh : Bool) (c a b : Ref) : Prog (Ref × Ref × Ref) :=
  AsmPoly.product3 shared (fun x _ => tb x) t n sh c a b

/-- src/ntt_red_asm1024.c:87-109, src/ntt_red_asm16.c:89-111 -/
def product4 (sh : Bool) (c a b : Ref) : Prog (Ref × Ref × Ref) :=
  AsmPoly.product4 shared (fun x _ => tb x) t n sh c a b

/-- src/ntt_red_asm1024.c:111-127, src/ntt_red_asm16.c:113-129; `up` is the upper half of the register that holds
the scalar. -/
def product5 (up : Int) (sh : Bool) (c a b : Ref) : Prog (Ref × Ref × Ref) :=
  AsmPoly.product5 shared (fun x _ => tb x) t n up sh c a b

end Shared.AsmProducts
