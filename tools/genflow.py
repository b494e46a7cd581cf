#!/usr/bin/env python3
"""From lean/Verif/Model/Traced.lean write lean/Verif/Model/Jumps.lean: the same functions without assertions and with a
record of the tests (Verif/Flow.lean).  From Proofs/TraceSkeleton.lean and Proofs/Trace.lean write Proofs/JumpsSkeleton.lean
and Proofs/Jumps.lean."""
import re, os
HERE = os.path.dirname(os.path.abspath(__file__))
L = os.path.join(HERE, '..', 'lean', 'Verif')
read = lambda *p: open(os.path.join(L, *p)).read()
def write(s, *p):
    open(os.path.join(L, *p), 'w').write(s)

# functions that contain an assertion or call one that does
REL = re.findall(r'^def (\w+)', read('Model', 'Release.lean'), re.M)

# --- the model
s = read('Model', 'Traced.lean')
b = s[s.index('namespace Traced'):]
head = '''import Verif.Flow
import Verif.Model.Release
import Verif.Model.Products
import Verif.Model.Naive

/-
The functions of src/ntt.c, src/ntt_red.c, src/naive_ntt.c and the products as they are built (with -DNDEBUG, that is without
assertions), with a record of the array accesses and of the outcomes of all tests.

Every definition is the definition of the same name in `Verif/Model/{Skeleton,Ntt,NttRed,Naive,
Products,Release}.lean`, written with the operations of `Verif/Flow.lean`; the comments cite the lines of the C code.  That
they compute the same results is a theorem (`Verif/Proofs/Jumps.lean`).  `red`, `mul_red`, `sub_mod`, `add_mod` and `modq` have
no tests and no array accesses and are not repeated.  Generated by tools/genflow.py from `Verif/Model/Traced.lean`.
-/

'''
b = b.replace('Traced', 'Jumps').replace('open C Trace Tables', 'open C Flow Tables\nopen Trace (Named)')
b = re.sub(r'^ *cassert .*\n', '', b, flags=re.M)
b = b.replace('open _root_.NttRed (red mul_red)', 'open _root_.NttRed (red)\nopen Release (mul_red)')
b = b.replace('(if x < 0 then i32 (x + 12289) else pure x)', 'tif (x < 0) (i32 (x + 12289)) (pure x)')
b = b.replace('(if x > 6144 then i32 (x - 12289) else pure x)', 'tif (x > 6144) (i32 (x - 12289)) (pure x)')
b = b.replace('(if i < st.1 then swap st.2 i st.1 else pure st.2)', 'tif (i < st.1) (swap st.2 i st.1) (pure st.2)')
b = b.replace('open _root_.Ntt (bitrevNext sub_mod add_mod modq)', '''open _root_.Ntt (sub_mod add_mod modq)

/-- `do { k >>= 1; j ^= k; } while ((j & k) == 0)` (src/ntt.c:39-42). -/
def bitrevNext : Nat → Nat → Nat → TM Nat
  | 0, _, _ => (Except.error .nonterm : M Nat)
  | fuel + 1, j, k =>
    let k := k / 2
    let j := j ^^^ k
    tif (j &&& k = 0) (bitrevNext fuel j k) (pure j)''')
b = b.replace('let r ← tforUp 1 (n - 1) 1 (fun i', 'let r ← tforUp 1 (u32 (n + 4294967295)) 1 (fun i')
b = b.replace('''(src/ntt_red16.c:18, 23, 42, 47, 66, 71, 90, 95, 114, 118); absent in src/ntt_red1024.c. -/''',
  '''(src/ntt_red16.c:18, 23, 42, 47, 66, 71, 90, 95, 114, 118); absent in src/ntt_red1024.c: not a test of the program. -/''')
assert 'if sh then' in b and b.count('tif') == 5, b.count('tif')
write(head + b, 'Model', 'Jumps.lean')

# --- the loop nests
s = read('Proofs', 'TraceSkeleton.lean')
b = s[s.index('namespace Traced'):].replace('Traced', 'Jumps').replace('open C Trace\n', 'open C Flow\nopen Trace (Named)\n')
write('''import Verif.Proofs.FlowRules
import Verif.Model.Jumps

/-
The loop nests with recorded events: same results, and events that do not depend on the data if those of the butterflies do
not.  Generated by tools/genflow.py from `Verif/Proofs/TraceSkeleton.lean`.
-/

''' + b, 'Proofs', 'JumpsSkeleton.lean')

# --- the functions
s = read('Proofs', 'Trace.lean')
b = s[s.index('namespace Traced'):].replace('Traced', 'Jumps').replace('open C Trace\n', 'open C Flow\nopen Trace (Named)\n')
# sections by namespace
out = []
ns = None
for blk in re.split(r'(?m)^(?=theorem |namespace |end )', b):
    m = re.match(r'(namespace|end) (\w+)', blk)
    if m:
        ns = m.group(2) if m.group(1) == 'namespace' else None
        out.append(blk); continue
    m = re.match(r'theorem (\w+)_(er|sm)\b', blk)
    if not m:
        out.append(blk); continue
    f, kind = m.groups()
    if ns == 'NttRed':
        if f in ('normalize', 'normalize_inv3', 'shift_array') and kind == 'sm':
            continue
        if f == 'shiftInput' and kind == 'sm':
            continue
        blk = blk.replace('generalize _root_.NttRed.mul_red', 'generalize Release.mul_red')
        if f in REL:
            blk = blk.replace('_root_.NttRed.' + f, 'Release.' + f)
        # dropped assertions
        blk = blk.replace('  refine Er.bind (Er.lift _) fun _ _ _ => ?_\n', '')
        if f.startswith('product') and kind == 'sm':
            blk = blk.replace('theorem %s_sm' % f, 'theorem %s_sx' % f)
            blk = blk.replace('(n : Nat) (sh : Bool)', '{n : Nat} (hn : n < 4294967296) (sh : Bool)')
            blk = blk.replace('Sm N3 (', 'Sx ((sh = true → Above n a.data a\'.data) ∧ (sh = true → Above n b.data b\'.data) ∧ True) N3 (')
            blk = blk.replace('Sm.bind (shiftInput_sm _ _ ', 'Sx.bind (shiftInput_sx hn _ ')
            blk = re.sub(r'refine Sm\.bind', 'refine Sx.bindSm', blk)
            blk = blk.replace('exact Sm.pure ⟨hc, ha, hb⟩', 'exact Sx.ofSm (Sm.pure ⟨hc, ha, hb⟩)')
    if ns == 'Ntt' and f == 'bitrev_shuffle':
        if kind == 'er':
            blk = blk.replace('_root_.Ntt.bitrev_shuffle', 'Release.bitrev_shuffle')
            blk = blk.replace('  refine Er.bind (Er.lift _) fun _ _ _ => ?_\n', '  generalize u32 (n + 4294967295) = m\n')
            blk = blk.replace('Er.ite (swap_er', 'Er.tif (swap_er').replace('refine Er.bind (Er.lift _) ?_\n  rintro j', 'refine Er.bind (bitrevNext_er _ _ _) ?_\n  rintro j')
            blk = '''theorem bitrevNext_er : ∀ fuel j k, Er Eq (bitrevNext fuel j k) (_root_.Ntt.bitrevNext fuel j k)
  | 0, _, _ => rfl
  | fuel + 1, j, k => by
    unfold bitrevNext _root_.Ntt.bitrevNext
    exact Er.tif (bitrevNext_er _ _ _) (Er.pure rfl)

theorem bitrevNext_sm : ∀ fuel j k, Sm Eq (bitrevNext fuel j k) (bitrevNext fuel j k) := fun _ _ _ => Sm.refl _

''' + blk
        else:
            blk = blk.replace('  refine Sm.bind (Sm.liftEq _) fun _ _ _ => ?_\n', '  generalize u32 (n + 4294967295) = m\n')
            blk = blk.replace('Sm.iteSame', 'Sm.tifSame').replace('refine Sm.bind (Sm.liftEq _) ?_\n  rintro j', 'refine Sm.bind (bitrevNext_sm _ _ _) ?_\n  rintro j')
    out.append(blk)
b = ''.join(out)
i = b.index('theorem product1_er (t : Tables.RedTables)')
b = b[:i] + '''/-- The outcomes of the tests of `shift_array` are the same. -/
def Above (n : Nat) (a a' : Array Int) : Prop := ∀ i < n, (6144 < a.getD i 0 ↔ 6144 < a'.getD i 0)

theorem shift_array_sx {n : Nat} (hn : n < 4294967296) {a a' : Named Int} (ha : N a a') :
    Sx (Above n a.data a'.data) N (shift_array a n) (shift_array a' n) :=
  Sx.elementwise (c := fun x => 6144 < x) hn ha fun i A A' h => by
    refine Sx.bindSm (Sm.rdVal h i) ?_
    rintro x x' ⟨rfl, rfl⟩
    refine (Sx.bind (Sx.tif (Sm.lift _ _) (Sm.lift _ (Pure.pure _)) (Sm.lift (Pure.pure _) _) (Sm.pure trivial))
      fun y y' _ => Sx.ofSm (Sm.wrAt h i y y')).iff (by simp)

theorem tmod_neg (x : Int) : x.tmod 12289 < 0 ↔ x < 0 ∧ ¬ (12289 : Int) ∣ x := by
  rw [Int.tmod_eq_emod]
  split <;> omega

theorem crem_val {x y : Int} (h : crem x 12289 = .ok y) : y = x.tmod 12289 := by
  unfold crem at h
  rw [if_neg (by decide)] at h
  injection h with h
  exact h.symm

/-- The outcomes of the tests of `normalize` and `normalize_inv3` are the same. -/
def Negative (n : Nat) (a a' : Array Int) : Prop :=
  ∀ i < n, ((a.getD i 0 < 0 ∧ ¬ (12289 : Int) ∣ a.getD i 0) ↔ (a'.getD i 0 < 0 ∧ ¬ (12289 : Int) ∣ a'.getD i 0))

theorem normalize_sx {n : Nat} (hn : n < 4294967296) {a a' : Named Int} (ha : N a a') :
    Sx (Negative n a.data a'.data) N (normalize a n) (normalize a' n) :=
  Sx.elementwise (c := fun x => x < 0 ∧ ¬ (12289 : Int) ∣ x) hn ha fun i A A' h => by
    refine Sx.bindSm (Sm.rdVal h i) ?_
    rintro x x' ⟨rfl, rfl⟩
    refine Sx.bindSm (Sm.liftVal _ _) ?_
    rintro y y' ⟨e, e'⟩
    refine (Sx.bind (Sx.tif (Sm.lift _ _) (Sm.lift _ (Pure.pure _)) (Sm.lift (Pure.pure _) _) (Sm.pure trivial))
      fun z z' _ => Sx.ofSm (Sm.wrAt h i z z')).iff ?_
    rw [crem_val e, crem_val e', tmod_neg, tmod_neg, and_true]

theorem inv3_neg {x y z : Int} (h : i64 (x * 8193) = .ok y) (h' : crem y 12289 = .ok z) :
    toI32 z < 0 ↔ x < 0 ∧ ¬ (12289 : Int) ∣ x := by
  have e : y = x * 8193 := by
    unfold i64 at h
    split at h
    · injection h with h
      exact h.symm
    · cases h
  have e' := crem_val h'
  have b : -12289 < z ∧ z < 12289 := by
    rw [e']
    exact ⟨by have := Int.lt_tmod_of_pos y (show (0 : Int) < 12289 by decide); omega, Int.tmod_lt_of_pos _ (by decide)⟩
  have t : toI32 z = z := by unfold toI32; omega
  rw [t, e', tmod_neg, e]
  omega

theorem normalize_inv3_sx {n : Nat} (hn : n < 4294967296) {a a' : Named Int} (ha : N a a') :
    Sx (Negative n a.data a'.data) N (normalize_inv3 a n) (normalize_inv3 a' n) :=
  Sx.elementwise (c := fun x => x < 0 ∧ ¬ (12289 : Int) ∣ x) hn ha fun i A A' h => by
    refine Sx.bindSm (Sm.rdVal h i) ?_
    rintro x x' ⟨rfl, rfl⟩
    refine Sx.bindSm (Sm.liftVal _ _) ?_
    rintro y y' ⟨e, e'⟩
    refine Sx.bindSm (Sm.liftVal _ _) ?_
    rintro z z' ⟨f, f'⟩
    refine (Sx.bind (Sx.tif (Sm.lift _ _) (Sm.lift _ (Pure.pure _)) (Sm.lift (Pure.pure _) _) (Sm.pure trivial))
      fun z z' _ => Sx.ofSm (Sm.wrAt h i z z')).iff ?_
    rw [inv3_neg e f, inv3_neg e' f', and_true]

theorem shiftInput_sx {n : Nat} (hn : n < 4294967296) (sh : Bool) {a a' : Named Int} (ha : N a a') :
    Sx (sh = true → Above n a.data a'.data) N (shiftInput n sh a) (shiftInput n sh a') := by
  unfold shiftInput
  cases sh
  · exact (Sx.ofSm (Sm.pure ha)).iff (by simp)
  · exact (shift_array_sx hn ha).iff (by simp)

''' + b[i:]
write('''import Verif.Proofs.JumpsSkeleton

/-
Every function with recorded events: `f_er` says that it computes the same result as the function as built, `f_sm` that two
runs of it on arrays of the same names have the same events, `f_sx` exactly when they have.
Generated by tools/genflow.py from `Verif/Proofs/Trace.lean`.
-/

''' + b, 'Proofs', 'Jumps.lean')
