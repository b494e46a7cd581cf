import Verif.Model.Code

/-
Execution on the machine of `Verif/Model/X86.lean` with a record of what an observer of the processor may see: each instruction
executed (hence the outcome of each conditional jump) and the addresses it accesses.
-/

namespace X86
open C Avx

variable {L S : Type}

/-- The number of bytes read by a load (`vmovdqu ymm`, `vpmovsxdq ymm`, `vpmovsxwd ymm`, `vpmovsxwq ymm`, `vpmovsxwq xmm`,
`vpbroadcastw xmm`). -/
def Load.width : Load → Nat
  | .dqu => 32
  | .sxdq => 16
  | .sxwd => 16
  | .sxwq => 8
  | .sxwq128 => 4
  | .bdcstw => 2

/-- The access of an instruction: address and number of bytes. -/
def access (K : Machine) (addr : S → Nat) (i : Instr L S) (s : State) : Option (Word × Nat) :=
  match i with
  | .load l _ a => some (a.ea s.gpr, l.width)
  | .const _ c => some (K.data + BitVec.ofNat 64 (addr c), 32)
  | .store a _ => some (a.ea s.gpr, 32)
  | .store128 a _ => some (a.ea s.gpr, 16)
  | .push _ => some (s.gpr rsp - 8, 8)
  | .pop _ => some (s.gpr rsp, 8)
  | .ret => some (s.gpr rsp, 8)
  | _ => none

variable [DecidableEq L]

/-- As `run`, with the list of the instructions executed and their accesses. -/
def observe (K : Machine) (addr : S → Nat) (prog : List (Instr L S)) :
    Nat → List (Instr L S) → State → List (Instr L S × Option (Word × Nat)) × M (Word × State)
  | 0, _, _ => ([], .error .nonterm)
  | _ + 1, [], _ => ([], .error .abort)
  | f + 1, i :: c, s =>
    match i with
    | .label _ => observe K addr prog f c s
    | .jmp l =>
      let r := observe K addr prog f (codeAt l prog) s
      ((.jmp l, none) :: r.1, r.2)
    | .jcc cc l =>
      let r := observe K addr prog f (if cc.holds s.cf s.zf then codeAt l prog else c) s
      ((.jcc cc l, none) :: r.1, r.2)
    | .ret => ([(.ret, access K addr (.ret : Instr L S) s)], do
      let a ← ld64 K s.mem (s.gpr rsp)
      .ok (a, { s with gpr := upd s.gpr rsp (s.gpr rsp + 8) }))
    | i =>
      match step K addr i s with
      | .error e => ([(i, access K addr i s)], .error e)
      | .ok s' =>
        let r := observe K addr prog f c s'
        ((i, access K addr i s) :: r.1, r.2)

end X86
