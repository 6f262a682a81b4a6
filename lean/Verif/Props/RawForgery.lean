import Verif.Props.RawNova
import Verif.Props.IvcPanic

/-!
# C88: which proofs the recursive verifier accepts, on limbs and with the arithmetic of the code

`C88_accepts_exact` and `C88_panics_exact` carry the exact conditions of C62 and C63 over to limbs and structs.
`C88_code_forged_refuted` is the forgery of C62 against the verifier with its own squaring and inversion: the carries it loses do not
stand in the way.
-/

set_option exponentiation.threshold 1600

namespace Kogarashi.Props

open Kogarashi Spec Nova Nova.Raw Curve Kogarashi.Field Limbs Groth16 Tower

section
variable {P S : FieldParams} [hvP : ValidWords P] [hvS : ValidWords S] {B1 : ZMod S.m} {B2 : ZMod P.m} {b1 : Words S} {b2 : Words P}
  [Module (ZMod P.m) (curve B1).Point] [Module (ZMod S.m) (curve B2).Point] {k1 : List (Words P)} {k2 : List (Words S)}

/-- **C88, exactly the accepted proofs**, with no assumption on the lengths of the vectors. -/
theorem C88_accepts_exact {C : Cycle P.m S.m (curve B1).Point (curve B2).Point} (hC : CycleHolds b1 b2 k1 k2 C) (ok : C.Ok)
    {gen1 : Nat → List (curve B1).Point} {gen2 : Nat → List (curve B2).Point}
    {pp : PublicParams P.m S.m (curve B1).Point (curve B2).Point} (hs : setup C gen1 gen2 = some pp) {s1 : Shape (Words P)}
    {s2 : Shape (Words S)} {ck2 : List (Aff (Words P))} (hpp : ParamsHold s1 s2 ck2 pp) {w : WRecursiveProof P S}
    {pf : RecursiveProof P.m S.m (curve B1).Point (curve B2).Point} (h : ProofHolds w pf) (hi : w.i < 2 ^ 64) :
    w.verify k1 k2 b2 s1 s2 ck2 = some true ↔ HashesMatch C pf ∧
      (Covers pp.shape1 pf.wrange1.w ∧ pf.wrange1.e.length = pp.shape1.m ∧
        RelaxedHolds pp.shape1 pf.range1.u pf.range1.x pf.wrange1.w pf.wrange1.e) ∧
      (Covers pp.shape2 pf.wrange2.w ∧ pf.wrange2.e.length = pp.shape2.m ∧
        RelaxedHolds pp.shape2 pf.range2.u pf.range2.x pf.wrange2.w pf.wrange2.e) ∧
      Covers pp.shape2 pf.wsingle2 ∧ PlainHolds pp.shape2 pf.single2.x pf.wsingle2 ∧
      pf.single2.commitW = commit pp.ck2 pf.wsingle2 := by
  rw [C88_verify hC hpp h hi, C62_accepts_exact ok hs]

/-- **C88, exactly the proofs on which the verifier on limbs panics.** -/
theorem C88_panics_exact {C : Cycle P.m S.m (curve B1).Point (curve B2).Point} (hC : CycleHolds b1 b2 k1 k2 C) (ok : C.Ok)
    {gen1 : Nat → List (curve B1).Point} {gen2 : Nat → List (curve B2).Point}
    {pp : PublicParams P.m S.m (curve B1).Point (curve B2).Point} (hs : setup C gen1 gen2 = some pp) {s1 : Shape (Words P)}
    {s2 : Shape (Words S)} {ck2 : List (Aff (Words P))} (hpp : ParamsHold s1 s2 ck2 pp) {w : WRecursiveProof P S}
    {pf : RecursiveProof P.m S.m (curve B1).Point (curve B2).Point} (h : ProofHolds w pf) (hi : w.i < 2 ^ 64) :
    w.verify k1 k2 b2 s1 s2 ck2 = none ↔ HashesMatch C pf ∧
      (¬ (Covers pp.shape1 pf.wrange1.w ∧ pf.wrange1.e.length = pp.shape1.m) ∨
       RelaxedHolds pp.shape1 pf.range1.u pf.range1.x pf.wrange1.w pf.wrange1.e ∧
        (¬ (Covers pp.shape2 pf.wrange2.w ∧ pf.wrange2.e.length = pp.shape2.m) ∨
         RelaxedHolds pp.shape2 pf.range2.u pf.range2.x pf.wrange2.w pf.wrange2.e ∧ ¬ Covers pp.shape2 pf.wsingle2)) := by
  rw [C88_verify hC hpp h hi, C63_exact ok hs]

end

section
variable {F : Type} [_root_.Field F] [DecidableEq F]

theorem rowProd_congr {l : Nat} {z z' : List F} (r : Row F) (h : ∀ e ∈ r, Matrix.readZ l z e.1 = Matrix.readZ l z' e.1) :
    Matrix.rowProd l z r = Matrix.rowProd l z' r := by
  unfold Matrix.rowProd
  generalize (0 : F) = acc
  induction r generalizing acc with
  | nil => rfl
  | cons e r ih =>
    rw [List.foldlM_cons, List.foldlM_cons, h e List.mem_cons_self]
    cases Matrix.readZ l z' e.1 with
    | none => rfl
    | some v => exact ih (fun e he => h e (List.mem_cons_of_mem _ he)) _

theorem prodLoop_congr {l : Nat} {z z' : List F} (rows : List (Row F))
    (h : ∀ r ∈ rows, ∀ e ∈ r, Matrix.readZ l z e.1 = Matrix.readZ l z' e.1) :
    ∀ i v, Matrix.prodLoop l z rows i v = Matrix.prodLoop l z' rows i v := by
  induction rows with
  | nil => intro i v; rfl
  | cons r rows ih =>
    intro i v
    unfold Matrix.prodLoop
    rw [rowProd_congr r (h r List.mem_cons_self)]
    cases Matrix.rowProd l z' r with
    | none => rfl
    | some s =>
      simp only [Option.bind_eq_bind, Option.bind_some]
      rw [ih (fun r hr => h r (List.mem_cons_of_mem _ hr))]

/-- Rows that mention no public input read the same whatever the public inputs. -/
theorem prod_inputs {x x' w : List F} (hx : x.length = x'.length) {rows : List (Row F)} {m : Nat} (u : F)
    (h : ∀ r ∈ rows, ∀ e ∈ r, e.1 = .inst 0 ∨ ∃ i, e.1 = .wit i) :
    Matrix.prod rows m (x.length + 1) (u :: (x ++ w)) = Matrix.prod rows m (x'.length + 1) (u :: (x' ++ w)) := by
  unfold Matrix.prod
  rw [← hx]
  refine prodLoop_congr rows (fun r hr e he => ?_) _ _
  rcases h r hr e he with h1 | ⟨i, h1⟩
  · rw [h1]; rfl
  · rw [h1]
    simp only [Matrix.readZ]
    rw [show i + (x.length + 1) = (x.length + i) + 1 by omega, List.getElem?_cons_succ, List.getElem?_cons_succ,
      List.getElem?_append_right (by omega), List.getElem?_append_right (by omega), hx]

theorem aff_eq_self (a : Aff F) : a.eq a = true := by
  unfold Aff.eq
  cases a.isIdentity <;> simp

end

section
variable {P S : FieldParams} [hvP : ValidWords P] [hvS : ValidWords S]

/-- A hash of 252 bits is what some element of the other field is read as. -/
theorem reread_hash (hS : 2 ^ 252 < S.m) (k : List (Words S)) (i : RInst (Words P) (Aff (Words S))) (n : Nat) (z z' : List (Words S)) :
    ∃ (h : Words P) (x : Words S), hashS codeOps (conv P S) k i n z z' = some h ∧ wReread x = h := by
  obtain ⟨a, ha⟩ := Option.isSome_iff_exists.mp (conv_absorb i)
  obtain ⟨bits, hbits⟩ : ∃ bits, bits = (S.toBits (spongeS (codeOps (P := S)).sq k ((conv P S).ofU64 n :: (z ++ z' ++ a)) 0).limbs).reverse.take
      hashBits := ⟨_, rfl⟩
  have hb : ∀ b ∈ bits, b = 0 ∨ b = 1 := by
    intro b h
    rw [hbits] at h
    exact toBits_bits _ b (List.mem_reverse.mp (List.mem_of_mem_take h))
  have hl : bits.length ≤ 252 := by rw [hbits]; exact List.length_take_le _ _
  have hN : beValue 2 bits.reverse < 2 ^ 252 := by
    have h1 : beValue 2 bits.reverse < 2 ^ bits.reverse.length := beValue_two_lt fun b h =>
      hb b (List.mem_reverse.mp h)
    rw [List.length_reverse] at h1
    exact h1.trans_le (Nat.pow_le_pow_right (by norm_num) hl)
  have e : ∀ {R : FieldParams} [ValidWords R], Words.hom (wReadBits bits 1 0 : Words R) = ((beValue 2 bits.reverse : Nat) : ZMod R.m) := by
    intro R _
    rw [hom_readBits, map_one, map_zero, readBitsLE_eq _ hb, zero_add, one_mul]
  refine ⟨wReadBits bits 1 0, wReadBits bits 1 0, ?_, ?_⟩
  · unfold hashS
    have hlow : ∀ y n, (conv P S).lowBits y n = wReadBits ((S.toBits y.limbs).reverse.take n) 1 0 := fun _ _ => rfl
    rw [ha, Option.map_some, squeezeS, hlow, hbits]
  · apply hom_inj
    have : NeZero S.m := ⟨by omega⟩
    rw [hom_reread, reread_eq words_m_le, e, e, ZMod.val_natCast, Nat.mod_eq_of_lt (by omega)]

variable {B1 : ZMod S.m} {B2 : ZMod P.m} {b1 : Words S} {b2 : Words P}
  [Module (ZMod P.m) (curve B1).Point] [Module (ZMod S.m) (curve B2).Point] {k1 : List (Words P)} {k2 : List (Words S)}

/-- **C88 is false of the code.** With the parameters of an honest setup, and with the squaring and
inversion of the code, carry losses included: for any claimed step count, inputs and outputs, given as limbs, there is an accepted proof
that claims them. -/
theorem C88_code_forged_refuted {C : Cycle P.m S.m (curve B1).Point (curve B2).Point} (hC : CycleHolds b1 b2 k1 k2 C) (ok : C.Ok)
    {gen1 : Nat → List (curve B1).Point} {gen2 : Nat → List (curve B2).Point}
    {pp : PublicParams P.m S.m (curve B1).Point (curve B2).Point} (hs : setup C gen1 gen2 = some pp) {s1 : Shape (Words P)}
    {s2 : Shape (Words S)} {ck2 : List (Aff (Words P))} (hpp : ParamsHold s1 s2 ck2 pp) {i : Nat} (hi : i < 2 ^ 64)
    (z01 zi1 : List (Words P)) (z02 zi2 : List (Words S)) :
    ∃ w : WRecursiveProof P S, recVerifyS codeOps codeOps k1 k2 b2 s1 s2 ck2 w = some true ∧ w.i = i ∧ w.z01 = z01 ∧ w.z02 = z02 ∧
      w.zi1 = zi1 ∧ w.zi2 = zi2 := by
  obtain ⟨w, hv, e1, e2, e3, e4, e5⟩ := C88_forged_refuted hC ok hs hpp hi z01 zi1 z02 zi2
  have ok2 := (setup_ok ok hs).ok2
  rw [hpp.shape2] at ok2
  have wires : ∀ r ∈ s2.a ++ s2.b ++ s2.c, ∀ e ∈ r, e.1 = .inst 0 ∨ ∃ i, e.1 = .wit i := by
    intro r hr e he
    have hm : rowMap Words.hom r ∈ (s2.mapF Words.hom).a ++ (s2.mapF Words.hom).b ++ (s2.mapF Words.hom).c := by
      rw [show (s2.mapF Words.hom).a ++ (s2.mapF Words.hom).b ++ (s2.mapF Words.hom).c = (s2.a ++ s2.b ++ s2.c).map (rowMap Words.hom) by
        rw [List.map_append, List.map_append]; rfl]
      exact List.mem_map_of_mem hr
    rcases ok2.wires _ hm (e.1, Words.hom e.2) (List.mem_map.mpr ⟨e, he, rfl⟩) with h | ⟨i, h, -⟩
    · exact Or.inl h
    · exact Or.inr ⟨i, h⟩
  obtain ⟨h2, x1, eh2, hx1⟩ := reread_hash (S := S) (P := P) (ok.D2.q254.big (by norm_num)) k2 w.range1 w.i w.z02 w.zi2
  obtain ⟨h1, eh1⟩ : ∃ h1, hashS codeOps (conv S P) k1 w.range2 w.i w.z01 w.zi1 = some h1 := by
    obtain ⟨a, ha⟩ := Option.isSome_iff_exists.mp (conv_absorb (P := S) (Q := P) w.range2)
    unfold hashS
    rw [ha]
    exact ⟨_, rfl⟩
  obtain ⟨c, hc⟩ := commitS_some (o := codeOps) (c := conv S P) conv_nafs b2 ck2 w.wsingle2
  unfold WRecursiveProof.verify at hv
  split at hv
  · cases hv
  rename_i hl
  push_neg at hl
  simp only [Option.bind_eq_bind, Option.bind_eq_some_iff] at hv
  obtain ⟨_, _, _, _, _, _, _, _, hv⟩ := hv
  split at hv
  · cases hv
  simp only [Option.bind_eq_some_iff] at hv
  obtain ⟨a, ha, hv⟩ := hv
  split at hv
  · cases hv
  rename_i hat
  simp only [Option.bind_eq_some_iff] at hv
  obtain ⟨b, hb, hv⟩ := hv
  split at hv
  · cases hv
  rename_i hbt
  have ha' : a = true := by cases a <;> simp at hat ⊢
  have hb' : b = true := by cases b <;> simp at hbt ⊢
  subst ha' hb'
  unfold wIsSat at hv
  simp only [Option.bind_eq_bind, Option.bind_eq_some_iff] at hv
  obtain ⟨az, paz, bz, pbz, cz, pcz, ab, pab, c0, -, hv⟩ := hv
  have hall : ((ab.zip cz).all fun p => p.1 == p.2) = true := by
    have := Option.some.inj hv
    rw [Bool.and_eq_true] at this
    exact this.1
  have hx : w.single2.x.length = [h1, x1].length := hl.1
  rw [prod_inputs hx 1 (fun r hr => wires r (by simp [hr]))] at paz
  rw [prod_inputs hx 1 (fun r hr => wires r (by simp [hr]))] at pbz
  rw [prod_inputs hx 1 (fun r hr => wires r (by simp [hr]))] at pcz
  have hsat : isSatS codeOps (conv S P) b2 s2 ck2 ⟨c, [h1, x1]⟩ w.wsingle2 = some true := by
    unfold isSatS
    dsimp only
    rw [paz, pbz, pcz]
    simp only [Option.bind_eq_bind, Option.bind_some]
    rw [pab, hc]
    simp only [Option.bind_some]
    rw [hall, aff_eq_self]
    rfl
  refine ⟨{ w with single2 := ⟨c, [h1, x1]⟩ }, ?_, e1, e2, e3, e4, e5⟩
  unfold recVerifyS
  dsimp only
  rw [if_neg (by rw [hl.2.1, hl.2.2]; simp), eh1, eh2]
  simp only [Option.bind_eq_bind, Option.bind_some, List.getElem?_cons_zero, List.getElem?_cons_succ]
  rw [if_neg (by rw [hx1]; simp), ha]
  simp only [Option.bind_some, Bool.not_true]
  rw [if_neg (by simp), hb]
  simp only [Option.bind_some, Bool.not_true]
  rw [if_neg (by simp)]
  exact hsat

end

/-- With the library's cycle and the round constants it derives: the verifier of the code accepts the claim that one step takes `0` to
`1`, although it takes it to `5`. -/
example (fp : CarryBits) (gen1 : Nat → List (curve g1B).Point) (gen2 : Nat → List (curve grumpkinB).Point) :
    ∃ (s1 : Shape (Words frParams)) (s2 : Shape (Words fqParams)) (ck2 : List (Aff (Words frParams)))
      (w : WRecursiveProof frParams fqParams),
      recVerifyS codeOps codeOps (mimcWords frParams) (mimcWords fqParams) grumpkinBW s1 s2 ck2 w = some true ∧ w.i = 1 ∧ w.z01 = [0] ∧
      w.zi1 = [1] ∧ (exampleFn FrV).invoke [0] = [5] := by
  obtain ⟨pp, hs, -⟩ := setup_some (bn254Cycle_ok fp ((mimcWords frParams).map Words.hom) ((mimcWords fqParams).map Words.hom)) gen1 gen2
  obtain ⟨s1, s2, ck2, hpp⟩ := lift_params pp
  obtain ⟨w, g1, g2, g3, -, g5, -⟩ := C88_code_forged_refuted (bn254_holds fp (mimcWords frParams) (mimcWords fqParams))
    (bn254Cycle_ok fp _ _) hs hpp (i := 1) (by norm_num) [0] [1] [0] [0]
  exact ⟨s1, s2, ck2, w, g1, g2, g3, g5, by decide +kernel⟩

end Kogarashi.Props
