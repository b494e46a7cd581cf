import Verif.Proofs.MachCall

/-
`avx2_supported` on the machine.
-/

namespace X86
open C Avx

section
variable {α : Type} {K : Machine} {x : M α} {c c1 : Text} {P : α → Text → State → Prop} {g : Nat → Word} {y : Nat → V8}
  {cf zf : Bool} {m : Memory}

theorem ext_low (w : BitVec 32) : low (ext w) = w := by
  unfold low ext
  simp

theorem Sim.push {r : Nat} (hw : Writable K (g rsp - 8) 8)
    (h : Sim K x c ⟨upd g rsp (g rsp - 8), y, cf, zf, put m (g rsp - 8) (g r).toNat 8⟩ P) : Sim K x (.push r :: c) ⟨g, y, cf, zf, m⟩ P := by
  refine .go (s1 := ⟨upd g rsp (g rsp - 8), y, cf, zf, put m (g rsp - 8) (g r).toNat 8⟩) ⟨1, fun f => ?_⟩ id h
  show ((st64 K m (g rsp - 8) (g r) >>= fun v => _) >>= fun s => run K Code.addr Code.prog f c s) = _
  unfold st64
  rw [_root_.if_pos (allowed_of _ _ hw)]
  rfl

theorem Sim.pop {d : Nat} {w : Word} (hr : Readable K (g rsp) 8) (hv : BitVec.ofNat 64 (val m (g rsp) 8) = w)
    (h : Sim K x c ⟨upd (upd g rsp (g rsp + 8)) d w, y, cf, zf, m⟩ P) : Sim K x (.pop d :: c) ⟨g, y, cf, zf, m⟩ P := by
  refine .go (s1 := ⟨upd (upd g rsp (g rsp + 8)) d w, y, cf, zf, m⟩) ⟨1, fun f => ?_⟩ id h
  show ((ld64 K m (g rsp) >>= fun v => _) >>= fun s => run K Code.addr Code.prog f c s) = _
  unfold ld64
  rw [_root_.if_pos (allowed_of _ _ hr), hv]
  rfl

theorem Sim.movi32 {d k : Nat} (h : Sim K x c ⟨upd g d (ext (BitVec.ofNat 32 k)), y, cf, zf, m⟩ P) :
    Sim K x (.movi32 d k :: c) ⟨g, y, cf, zf, m⟩ P :=
  .go ⟨1, fun _ => rfl⟩ id h

theorem Sim.xor32_self {d : Nat} (h : ∀ cf zf, Sim K x c ⟨upd g d (ext 0), y, cf, zf, m⟩ P) :
    Sim K x (.xor32 d d :: c) ⟨g, y, cf, zf, m⟩ P := by
  have e : low (g d) ^^^ low (g d) = 0 := BitVec.xor_self
  rw [← e] at h
  exact .go ⟨1, fun f => rfl⟩ id (h _ _)

theorem Sim.cpuid {e k : BitVec 32} (he : low (g rax) = e) (hk : low (g rcx) = k)
    (h : Sim K x c ⟨upd (upd (upd (upd g rax (ext (K.cpuid e k).1)) rbx (ext (K.cpuid e k).2.1)) rcx (ext (K.cpuid e k).2.2.1)) rdx
      (ext (K.cpuid e k).2.2.2), y, cf, zf, m⟩ P) : Sim K x (.cpuid :: c) ⟨g, y, cf, zf, m⟩ P := by
  subst he hk
  exact .go ⟨1, fun _ => rfl⟩ id h

theorem Sim.xgetbv (hb : (K.cpuid 1 0).2.2.1.getLsbD 27 = true) (hc : low (g rcx) = 0)
    (h : Sim K x c ⟨upd (upd g rax (ext K.xcr0.1)) rdx (ext K.xcr0.2), y, cf, zf, m⟩ P) :
    Sim K x (.xgetbv :: c) ⟨g, y, cf, zf, m⟩ P := by
  refine .go (s1 := ⟨upd (upd g rax (ext K.xcr0.1)) rdx (ext K.xcr0.2), y, cf, zf, m⟩) ⟨1, fun f => ?_⟩ id h
  show ((if (K.cpuid 1 0).2.2.1.getLsbD 27 && low (g rcx) == 0 then _ else _) >>= fun s => run K Code.addr Code.prog f c s) = _
  rw [_root_.if_pos (by rw [hb, hc]; rfl)]
  rfl

/-- `and r, k; cmp r, k; jne l` -/
theorem Sim.mask_jne {r k : Nat} {l : Code.Label} {w : BitVec 32} (hl : codeAt l Code.prog = c1) (hw : low (g r) = w)
    (ht : w &&& BitVec.ofNat 32 k ≠ BitVec.ofNat 32 k → ∀ cf zf, Sim K x c1 ⟨upd g r (ext (w &&& BitVec.ofNat 32 k)), y, cf, zf, m⟩ P)
    (hf : w &&& BitVec.ofNat 32 k = BitVec.ofNat 32 k → ∀ cf zf, Sim K x c ⟨upd g r (ext (w &&& BitVec.ofNat 32 k)), y, cf, zf, m⟩ P) :
    Sim K x (.andi32 r k :: .cmpi32 r k :: .jcc .ne l :: c) ⟨g, y, cf, zf, m⟩ P := by
  subst hw
  have hu : upd g r (ext (low (g r) &&& BitVec.ofNat 32 k)) r = ext (low (g r) &&& BitVec.ofNat 32 k) := by
    unfold upd
    rw [Nat.beq_refl]
    rfl
  have go : ∀ f, run K Code.addr Code.prog (f + 3) (.andi32 r k :: .cmpi32 r k :: .jcc .ne l :: c) ⟨g, y, cf, zf, m⟩ =
      run K Code.addr Code.prog f (if !(low (g r) &&& BitVec.ofNat 32 k == BitVec.ofNat 32 k) then codeAt l Code.prog else c)
        ⟨upd g r (ext (low (g r) &&& BitVec.ofNat 32 k)), y,
          decide ((low (g r) &&& BitVec.ofNat 32 k).toNat < (BitVec.ofNat 32 k).toNat), low (g r) &&& BitVec.ofNat 32 k == BitVec.ofNat 32 k, m⟩ := by
    intro f
    have : ∀ w : Word, upd g r (ext (low (g r) &&& BitVec.ofNat 32 k)) r = w → w = ext (low (g r) &&& BitVec.ofNat 32 k) →
        run K Code.addr Code.prog (f + 3) (.andi32 r k :: .cmpi32 r k :: .jcc .ne l :: c) ⟨g, y, cf, zf, m⟩ =
      run K Code.addr Code.prog f (if !(low w == BitVec.ofNat 32 k) then codeAt l Code.prog else c)
        ⟨upd g r (ext (low (g r) &&& BitVec.ofNat 32 k)), y,
          decide ((low w).toNat < (BitVec.ofNat 32 k).toNat), low w == BitVec.ofNat 32 k, m⟩ := by
      intro w hw _
      subst hw
      rfl
    rw [this _ hu rfl, ext_low]
  obtain ⟨cf', zf', go⟩ : ∃ cf' zf', ∀ f, run K Code.addr Code.prog (f + 3) (.andi32 r k :: .cmpi32 r k :: .jcc .ne l :: c)
      ⟨g, y, cf, zf, m⟩ = run K Code.addr Code.prog f
        (if !(low (g r) &&& BitVec.ofNat 32 k == BitVec.ofNat 32 k) then codeAt l Code.prog else c)
        ⟨upd g r (ext (low (g r) &&& BitVec.ofNat 32 k)), y, cf', zf', m⟩ := ⟨_, _, go⟩
  by_cases h : low (g r) &&& BitVec.ofNat 32 k = BitVec.ofNat 32 k
  · refine .go (s1 := ⟨upd g r (ext (low (g r) &&& BitVec.ofNat 32 k)), y, cf', zf', m⟩) ⟨3, fun f => (go f).trans ?_⟩ id (hf h _ _)
    rw [_root_.if_neg (by simp [h])]
  · refine .go (s1 := ⟨upd g r (ext (low (g r) &&& BitVec.ofNat 32 k)), y, cf', zf', m⟩) ⟨3, fun f => (go f).trans ?_⟩ id (ht h _ _)
    rw [_root_.if_pos (by simp [h]), hl]

end

/-- All bits of a mask. -/
theorem and_eq_iff (w : BitVec 32) (k : BitVec 32) : w &&& k = k ↔ ∀ i < 32, k.getLsbD i = true → w.getLsbD i = true := by
  constructor
  · intro h i hi hk
    have := congrArg (fun z => z.getLsbD i) h
    simp only [BitVec.getLsbD_and, hk, Bool.and_true] at this
    exact this
  · intro h
    apply BitVec.eq_of_getLsbD_eq
    intro i hi
    rw [BitVec.getLsbD_and]
    cases hk : k.getLsbD i with
    | false => simp
    | true => rw [h i hi hk]; rfl

theorem mask_osxsave_avx (w : BitVec 32) :
    w &&& BitVec.ofNat 32 402653184 = BitVec.ofNat 32 402653184 ↔ w.getLsbD 27 = true ∧ w.getLsbD 28 = true := by
  rw [and_eq_iff]
  constructor
  · intro h
    exact ⟨h 27 (by decide) (by decide), h 28 (by decide) (by decide)⟩
  · intro ⟨h1, h2⟩ i hi hk
    have hd : ∀ i < 32, (BitVec.ofNat 32 402653184).getLsbD i = true → i = 27 ∨ i = 28 := by decide
    rcases hd i hi hk with rfl | rfl
    · exact h1
    · exact h2

theorem mask_avx2 (w : BitVec 32) : w &&& BitVec.ofNat 32 32 = BitVec.ofNat 32 32 ↔ w.getLsbD 5 = true := by
  rw [and_eq_iff]
  constructor
  · intro h
    exact h 5 (by decide) (by decide)
  · intro h i hi hk
    have hd : ∀ i < 32, (BitVec.ofNat 32 32).getLsbD i = true → i = 5 := by decide
    rw [hd i hi hk]
    exact h

theorem mask_xcr0 (w : BitVec 32) :
    w &&& BitVec.ofNat 32 6 = BitVec.ofNat 32 6 ↔ w.getLsbD 1 = true ∧ w.getLsbD 2 = true := by
  rw [and_eq_iff]
  constructor
  · intro h
    exact ⟨h 1 (by decide) (by decide), h 2 (by decide) (by decide)⟩
  · intro ⟨h1, h2⟩ i hi hk
    have hd : ∀ i < 32, (BitVec.ofNat 32 6).getLsbD i = true → i = 1 ∨ i = 2 := by decide
    rcases hd i hi hk with rfl | rfl
    · exact h1
    · exact h2

/-- At `ret` of `avx2_supported`. -/
def SupPost (K : Machine) (g0 : Nat → Word) (m1 : Memory) (_ : Unit) (c : Text) (s : State) : Prop :=
  (∃ c', c = .ret :: c') ∧ s.mem = m1 ∧ s.gpr rax = (if UsableAvx2 K then 1 else 0) ∧
    Agree [rax, rcx, rdx] g0 s.gpr

theorem avx2_supported_sim {K : Machine} {g : Nat → Word} {y : Nat → V8} {cf zf : Bool} {m : Memory}
    (hleaf : ∀ c, K.cpuid 1 c = K.cpuid 1 0) (hr : Readable K (g rsp - 8) 8) (hw : Writable K (g rsp - 8) 8) :
    Sim K (pure ()) Text.avx2_supported ⟨g, y, cf, zf, m⟩ (SupPost K g (put m (g rsp - 8) (g rbx).toNat 8)) := by
  have hv : BitVec.ofNat 64 (val (put m (g rsp - 8) (g rbx).toNat 8) (g rsp - 8) 8) = g rbx := by
    rw [val_put _ _ _ _ (by decide)]
    apply BitVec.eq_of_toNat_eq
    have := (g rbx).isLt
    rw [BitVec.toNat_ofNat]
    omega
  -- the registers after `pop`
  have hag : ∀ g' : Nat → Word, g' rsp = g rsp - 8 → Agree [rax, rcx, rdx, rbx, rsp] g g' →
      Agree [rax, rcx, rdx] g (upd (upd g' rsp (g' rsp + 8)) rbx (g rbx)) := by
    intro g' h1 h2 k hk
    by_cases hb : k = rbx
    · subst hb; rfl
    · by_cases hs : k = rsp
      · subst hs
        show g' rsp + 8 = g rsp
        rw [h1, BitVec.sub_add_cancel]
      · have e : ∀ j, k ≠ j → Nat.beq k j = false := fun j hj => by
          cases h : Nat.beq k j with
          | false => rfl
          | true => exact absurd (Nat.eq_of_beq_eq_true h) hj
        unfold upd
        rw [e _ hb, e _ hs]
        refine h2 k ?_
        simp only [List.contains_cons, List.contains_nil, Bool.or_false, Bool.or_eq_false_iff, beq_eq_false_iff_ne] at hk ⊢
        exact ⟨hk.1, hk.2.1, hk.2.2, hb, hs⟩
  have out0 : ¬ UsableAvx2 K → ∀ g' cf zf, g' rsp = g rsp - 8 → Agree [rax, rcx, rdx, rbx, rsp] g g' →
      Sim K (pure ()) Text.not_supported ⟨g', y, cf, zf, put m (g rsp - 8) (g rbx).toNat 8⟩
        (SupPost K g (put m (g rsp - 8) (g rbx).toNat 8)) := by
    intro hu g' cf zf h1 h2
    unfold Text.not_supported
    refine Sim.xor32_self fun cf zf => ?_
    have h3 : upd g' rax (ext 0) rsp = g rsp - 8 := h1
    refine Sim.pop (w := g rbx) (by rw [h3]; exact hr) (by rw [h3]; exact hv) (Sim.stop ⟨⟨_, rfl⟩, rfl, ?_, ?_⟩)
    · rw [if_neg hu]
      rfl
    · exact hag _ h3 (h2.upd rfl)
  unfold Text.avx2_supported
  refine Sim.push hw ?_
  refine Sim.movi32 ?_
  refine Sim.cpuid (e := 1) (ext_low _) rfl ?_
  rw [hleaf]
  refine Sim.mask_jne (w := (K.cpuid 1 0).2.2.1) codeAt_not_supported (ext_low _) (fun h cf zf => ?_) (fun h1 cf zf => ?_)
  · refine out0 (fun hu => h ((mask_osxsave_avx _).mpr ⟨hu.1, hu.2.1⟩)) _ _ _ rfl ?_
    agree Agree.refl
  refine Sim.movi32 ?_
  refine Sim.xor32_self fun cf zf => ?_
  refine Sim.cpuid (e := 7) (k := 0) (ext_low _) (ext_low _) ?_
  refine Sim.mask_jne (w := (K.cpuid 7 0).2.1) codeAt_not_supported (ext_low _) (fun h cf zf => ?_) (fun h2 cf zf => ?_)
  · refine out0 (fun hu => h ((mask_avx2 _).mpr hu.2.2.1)) _ _ _ rfl ?_
    agree Agree.refl
  refine Sim.xor32_self fun cf zf => ?_
  refine Sim.xgetbv ((mask_osxsave_avx _).mp h1).1 (ext_low _) ?_
  refine Sim.mask_jne (w := K.xcr0.1) codeAt_not_supported (ext_low _) (fun h cf zf => ?_) (fun h3 cf zf => ?_)
  · refine out0 (fun hu => h ((mask_xcr0 _).mpr hu.2.2.2)) _ _ _ rfl ?_
    agree Agree.refl
  refine Sim.movi32 ?_
  refine Sim.pop (w := g rbx) hr hv (Sim.stop ⟨⟨_, rfl⟩, rfl, ?_, ?_⟩)
  · rw [if_pos ⟨((mask_osxsave_avx _).mp h1).1, ((mask_osxsave_avx _).mp h1).2, (mask_avx2 _).mp h2, (mask_xcr0 _).mp h3⟩]
    rfl
  · refine hag _ rfl ?_
    agree Agree.refl

end X86
