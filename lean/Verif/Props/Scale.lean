import Verif.Wire.ScaleProof
import Verif.Spec.Scale
import Verif.Spec.Field
import Verif.Field.Prime

/-! # Properties C81 and C82: the bytes of proofs and public parameters -/

namespace Kogarashi.Props

open Kogarashi Limbs Nova Curve Scale Spec.Scale Kogarashi.Field Spec

theorem le_eq (k n : Nat) : leBytes k n = le k n := by
  induction k generalizing n with
  | zero => simp [leBytes, le]
  | succ k ih =>
    rw [leBytes, ih, le, le, List.ofFn_succ]
    congr 1
    · simp [byte]
    · congr 1
      funext i
      simp only [Fin.val_succ, pow_succ', Nat.div_div_eq_div_mul]

theorem le_one (n : Nat) : le 1 n = [byte n] := by rw [← le_eq]; rfl

/-- The codec writes the given bytes for the values of the type, and panics exactly when a vector is too long. -/
structure Lays {α : Type} (c : Codec α) (wf fits : α → Prop) (lay : α → List Byte) : Prop where
  ok : ∀ {x}, wf x → fits x → c.enc x = some (lay x)
  long : ∀ {x}, wf x → ¬ fits x → c.enc x = none

section
variable {α β : Type} {c : Codec α} {d : Codec β} {wf fits : α → Prop} {wf' fits' : β → Prop} {lay : α → List Byte}
  {lay' : β → List Byte}

theorem Lays.pair (hc : Lays c wf fits lay) (hd : Lays d wf' fits' lay') :
    Lays (c.pair d) (fun p => wf p.1 ∧ wf' p.2) (fun p => fits p.1 ∧ fits' p.2) fun p => lay p.1 ++ lay' p.2 where
  ok {x} h h' := by simp [Codec.pair, hc.ok h.1 h'.1, hd.ok h.2 h'.2]
  long {x} h h' := by
    by_cases h1 : fits x.1
    · have h2 : ¬ fits' x.2 := fun h2 => h' ⟨h1, h2⟩
      simp [Codec.pair, hc.ok h.1 h1, hd.long h.2 h2]
    · simp [Codec.pair, hc.long h.1 h1]

theorem Lays.iso (hc : Lays c wf fits lay) (f : α → β) (g : β → α) :
    Lays (c.iso f g) (fun b => wf (g b)) (fun b => fits (g b)) fun b => lay (g b) where
  ok h h' := hc.ok h h'
  long h h' := hc.long h h'

theorem Lays.congr (hc : Lays c wf fits lay) {wf2 fits2 : α → Prop} {lay2 : α → List Byte} (h1 : ∀ x, wf2 x → wf x)
    (h2 : ∀ x, fits2 x ↔ fits x) (h3 : ∀ x, lay2 x = lay x) : Lays c wf2 fits2 lay2 where
  ok h h' := by rw [h3]; exact hc.ok (h1 _ h) ((h2 _).1 h')
  long h h' := hc.long (h1 _ h) fun h4 => h' ((h2 _).2 h4)

theorem lays_u64 : Lays u64C (· < 2 ^ 64) (fun _ => True) (le 8) where
  ok _ _ := by simp only [u64C, le_eq]
  long _ h := absurd trivial h

theorem lays_bool : Lays boolC (fun _ => True) (fun _ => True) fun b => [if b then 1 else 0] where
  ok _ _ := rfl
  long _ h := absurd trivial h

theorem log256 {n m : Nat} (h1 : 256 ^ m ≤ n) (h2 : n < 256 ^ (m + 1)) : Nat.log 256 n = m :=
  Nat.log_eq_of_pow_le_of_lt_pow h1 h2

theorem bytesNeeded_log {n : Nat} (h : 0x3fffffff < n) (h2 : n < 2 ^ 64) : bytesNeeded n = Nat.log 256 n + 1 := by
  rcases bytesNeeded_spec h h2 with ⟨hk, hl⟩ | ⟨hk, hl, hl'⟩ | ⟨hk, hl, hl'⟩ | ⟨hk, hl, hl'⟩ | ⟨hk, hl⟩ <;> rw [hk]
  · rw [log256 (m := 3) (by omega) (by omega)]
  · rw [log256 (m := 4) (by omega) (by omega)]
  · rw [log256 (m := 5) (by omega) (by omega)]
  · rw [log256 (m := 6) (by omega) (by omega)]
  · rw [log256 (m := 7) (by omega) (by omega)]

theorem lays_compact64 : Lays compact64 (· < 2 ^ 64) (fun _ => True) compact where
  ok {n} h _ := by
    simp only [compact64, compact]
    by_cases h1 : n < 2 ^ 6
    · rw [if_pos (by omega), if_pos h1, le_one, Nat.mul_comm]
    rw [if_neg (by omega), if_neg h1]
    by_cases h2 : n < 2 ^ 14
    · rw [if_pos (by omega), if_pos h2, le_eq, Nat.mul_comm]
    rw [if_neg (by omega), if_neg h2]
    by_cases h3 : n < 2 ^ 30
    · rw [if_pos (by omega), if_pos h3, le_eq, Nat.mul_comm]
    rw [if_neg (by omega), if_neg h3, bytesNeeded_log (by omega) h, le_eq, le_one, Nat.add_comm 3, Nat.mul_comm _ 4]
    rfl
  long _ h := absurd trivial h

theorem compact32_enc {n : Nat} (h : n < 2 ^ 32) : compact32.enc n = some (compact n) := by
  simp only [compact32, compact]
  by_cases h1 : n < 2 ^ 6
  · rw [if_pos (by omega), if_pos h1, le_one, Nat.mul_comm]
  rw [if_neg (by omega), if_neg h1]
  by_cases h2 : n < 2 ^ 14
  · rw [if_pos (by omega), if_pos h2, le_eq, Nat.mul_comm]
  rw [if_neg (by omega), if_neg h2]
  by_cases h3 : n < 2 ^ 30
  · rw [if_pos (by omega), if_pos h3, le_eq, Nat.mul_comm]
  rw [if_neg (by omega), if_neg h3, if_pos (by omega),
    log256 (m := 3) (by omega) (by omega), le_eq, le_one]
  rfl

theorem compact32_long {n : Nat} (h : ¬ n < 2 ^ 32) : compact32.enc n = none := by
  simp only [compact32]
  rw [if_neg (by omega), if_neg (by omega), if_neg (by omega), if_neg (by omega)]

theorem encAll_ok (hc : Lays c wf fits lay) {l : List α} (h : ∀ a ∈ l, wf a) (h' : ∀ a ∈ l, fits a) :
    encAll c l = some (l.flatMap lay) := by
  induction l with
  | nil => rfl
  | cons a l ih =>
    rw [encAll, hc.ok (h a List.mem_cons_self) (h' a List.mem_cons_self),
      ih (fun b hb => h b (List.mem_cons_of_mem a hb)) fun b hb => h' b (List.mem_cons_of_mem a hb)]
    rfl

theorem encAll_long (hc : Lays c wf fits lay) {l : List α} (h : ∀ a ∈ l, wf a) (h' : ¬ ∀ a ∈ l, fits a) :
    encAll c l = none := by
  induction l with
  | nil => exact absurd (by simp) h'
  | cons a l ih =>
    rw [encAll]
    by_cases h1 : fits a
    · have h2 : ¬ ∀ b ∈ l, fits b := fun h2 => h' (by
        intro b hb
        rcases List.mem_cons.1 hb with rfl | hb
        · exact h1
        · exact h2 b hb)
      rw [hc.ok (h a List.mem_cons_self) h1, ih (fun b hb => h b (List.mem_cons_of_mem a hb)) h2]
      rfl
    · rw [hc.long (h a List.mem_cons_self) h1]
      rfl

theorem Lays.vec (hc : Lays c wf fits lay) :
    Lays c.vec (fun l => ∀ a ∈ l, wf a) (fun l => l.length < 2 ^ 32 ∧ ∀ a ∈ l, fits a) (Spec.Scale.vec lay) where
  ok {l} h h' := by
    simp only [Codec.vec, compact32_enc h'.1, encAll_ok hc h h'.2]
    rfl
  long {l} h h' := by
    by_cases h1 : l.length < 2 ^ 32
    · have h2 : ¬ ∀ a ∈ l, fits a := fun h2 => h' ⟨h1, h2⟩
      simp [Codec.vec, compact32_enc h1, encAll_long hc h h2]
    · simp [Codec.vec, compact32_long h1]

end

theorem lays_field : Lays fieldC L4.Wf (fun _ => True) field :=
  ((lays_u64.pair (lays_u64.pair (lays_u64.pair lays_u64))).iso _ _).congr (fun _ h => h) (fun _ => by simp)
    fun a => by simp [field]

theorem lays_point : Lays affC PointWords (fun _ => True) point :=
  ((lays_field.pair (lays_field.pair lays_bool)).iso _ _).congr (fun _ h => ⟨h.1, h.2, trivial⟩) (fun _ => by simp)
    fun a => by simp [point]

theorem lays_dense : Lays denseC Spec.Scale.Words (fun l => l.length < 2 ^ 32) (Spec.Scale.vec field) :=
  lays_field.vec.congr (fun _ h => h) (fun _ => by simp) fun _ => rfl

theorem lays_wire : Lays wireC WireTyped (fun _ => True)
    (fun | .inst i => 0 :: compact i | .wit i => 1 :: compact i) where
  ok {x} h _ := by
    cases x with
    | inst i => simp [wireC, lays_compact64.ok (x := i) h trivial]
    | wit i => simp [wireC, lays_compact64.ok (x := i) h trivial]
  long _ h := absurd trivial h

theorem lays_mat : Lays matC MatTyped MatFits (Spec.Scale.vec (Spec.Scale.vec term)) :=
  ((lays_wire.pair lays_field).vec.vec).congr (fun _ h => h) (fun x => by simp [MatFits])
    fun _ => rfl

theorem lays_shape : Lays shapeC ShapeTyped ShapeFits shape :=
  ((lays_compact64.pair (lays_compact64.pair (lays_compact64.pair (lays_mat.pair (lays_mat.pair lays_mat))))).iso _ _).congr
    (fun _ h => ⟨h.m, h.l, h.w, h.mats⟩) (fun x => by simp [ShapeFits]) fun x => by simp [shape]

theorem lays_inst : Lays instC (fun u => PointWords u.commitW ∧ Spec.Scale.Words u.x) (fun u => u.x.length < 2 ^ 32)
    (fun u => point u.commitW ++ Spec.Scale.vec field u.x) :=
  ((lays_point.pair lays_dense).iso _ _).congr (fun _ h => h) (fun x => by simp) fun _ => rfl

theorem lays_rinst : Lays rinstC RInstWords (fun u => u.x.length < 2 ^ 32) rinst :=
  ((lays_point.pair (lays_point.pair (lays_field.pair lays_dense))).iso _ _).congr (fun _ h => h) (fun x => by simp)
    fun x => by simp [rinst]

theorem lays_rwit : Lays rwitC (fun u => Spec.Scale.Words u.w ∧ Spec.Scale.Words u.e)
    (fun u => u.w.length < 2 ^ 32 ∧ u.e.length < 2 ^ 32) (fun u => Spec.Scale.vec field u.w ++ Spec.Scale.vec field u.e) :=
  ((lays_dense.pair lays_dense).iso _ _).congr (fun _ h => h) (fun _ => Iff.rfl) fun _ => rfl

theorem lays_proof : Lays proofC ProofTyped ProofFits proof :=
  ((lays_compact64.pair (lays_dense.pair (lays_dense.pair (lays_dense.pair (lays_dense.pair
    ((lays_inst.pair lays_dense).pair ((lays_rinst.pair lays_rwit).pair (lays_rinst.pair lays_rwit)))))))).iso _ _).congr
    (fun _ h => ⟨h.i, h.z01, h.z02, h.zi1, h.zi2, ⟨h.single2, h.wsingle2⟩, ⟨h.range1, h.wrange1⟩, h.range2, h.wrange2⟩)
    (fun x => by simp [ProofFits]; tauto) fun x => by simp [proof]

theorem lays_params : Lays paramsC ParamsTyped ParamsFits params :=
  ((lays_shape.pair (lays_shape.pair (lays_point.vec.pair lays_point.vec))).iso _ _).congr
    (fun _ h => ⟨h.shapes.1, h.shapes.2, h.ck1, h.ck2⟩) (fun x => by simp [ParamsFits]) fun x => by simp [params]

theorem law_field : Lawful fieldC L4.Wf :=
  (u64C_lawful.pair (u64C_lawful.pair (u64C_lawful.pair u64C_lawful))).iso (fun _ => rfl) fun _ => rfl

theorem law_point : Lawful affC PointWords :=
  ((law_field.pair (law_field.pair boolC_lawful)).iso (fun _ => rfl) fun _ => rfl).mono fun a => by simp [PointWords]

theorem law_dense : Lawful denseC Spec.Scale.Words := law_field.vec

theorem law_wire : Lawful wireC WireTyped where
  round {x e} h he r := by
    cases x with
    | inst i =>
      simp only [wireC, Option.bind_eq_bind, Option.bind_eq_some_iff, Option.some.injEq] at he
      obtain ⟨y, hy, rfl⟩ := he
      simp only [wireC, List.cons_append, if_pos, compact64_round h hy, Option.map_some]
    | wit i =>
      simp only [wireC, Option.bind_eq_bind, Option.bind_eq_some_iff, Option.some.injEq] at he
      obtain ⟨y, hy, rfl⟩ := he
      simp only [wireC, List.cons_append]
      rw [if_neg (by decide), if_pos trivial, compact64_round h hy, Option.map_some]
  unique {bs x r} h := by
    cases bs with
    | nil => simp [wireC] at h
    | cons b t =>
      simp only [wireC] at h
      split at h
      · next hb =>
        simp only [Option.map_eq_some_iff, Prod.mk.injEq] at h
        obtain ⟨⟨i, s⟩, hi, rfl, rfl⟩ := h
        obtain ⟨wi, e, he, rfl⟩ := compact64_unique hi
        exact ⟨wi, 0 :: e, by simp [wireC, he], by rw [hb]; rfl⟩
      · split at h
        · next hb =>
          simp only [Option.map_eq_some_iff, Prod.mk.injEq] at h
          obtain ⟨⟨i, s⟩, hi, rfl, rfl⟩ := h
          obtain ⟨wi, e, he, rfl⟩ := compact64_unique hi
          exact ⟨wi, 1 :: e, by simp [wireC, he], by rw [hb]; rfl⟩
        · simp at h

theorem law_mat : Lawful matC MatTyped := (law_wire.pair law_field).vec.vec

theorem law_shape : Lawful shapeC ShapeTyped :=
  ((compact64_lawful.pair (compact64_lawful.pair (compact64_lawful.pair (law_mat.pair (law_mat.pair law_mat))))).iso
    (fun _ => rfl) fun _ => rfl).mono fun _ => ⟨fun h => ⟨h.m, h.l, h.w, h.mats⟩, fun h => ⟨h.1, h.2.1, h.2.2.1, h.2.2.2⟩⟩

theorem law_inst : Lawful instC (fun u => PointWords u.commitW ∧ Spec.Scale.Words u.x) :=
  (law_point.pair law_dense).iso (fun _ => rfl) fun _ => rfl

theorem law_rinst : Lawful rinstC RInstWords :=
  (law_point.pair (law_point.pair (law_field.pair law_dense))).iso (fun _ => rfl) fun _ => rfl

theorem law_rwit : Lawful rwitC (fun u => Spec.Scale.Words u.w ∧ Spec.Scale.Words u.e) :=
  (law_dense.pair law_dense).iso (fun _ => rfl) fun _ => rfl

theorem law_proof : Lawful proofC ProofTyped :=
  ((compact64_lawful.pair (law_dense.pair (law_dense.pair (law_dense.pair (law_dense.pair
    ((law_inst.pair law_dense).pair ((law_rinst.pair law_rwit).pair (law_rinst.pair law_rwit)))))))).iso
    (fun _ => rfl) fun _ => rfl).mono fun _ =>
    ⟨fun h => ⟨h.i, h.z01, h.z02, h.zi1, h.zi2, ⟨h.single2, h.wsingle2⟩, ⟨h.range1, h.wrange1⟩, h.range2, h.wrange2⟩,
      fun ⟨h1, h2, h3, h4, h5, h6, h7, h8⟩ => ⟨h1, h2, h3, h4, h5, h6.1, h6.2, h7.1, h7.2, h8.1, h8.2⟩⟩

theorem law_params : Lawful paramsC ParamsTyped :=
  ((law_shape.pair (law_shape.pair (law_point.vec.pair law_point.vec))).iso (fun _ => rfl) fun _ => rfl).mono fun _ =>
    ⟨fun h => ⟨h.shapes.1, h.shapes.2, h.ck1, h.ck2⟩, fun h => ⟨⟨h.1, h.2.1⟩, h.2.2.1, h.2.2.2⟩⟩

/-- **C81.** Encoding a proof gives the bytes of the format; it panics exactly when a vector has `2^32` elements or
more. -/
theorem C81_proof_layout {q : WireProof} (h : ProofTyped q) :
    (ProofFits q → proofC.enc q = some (proof q)) ∧ (¬ ProofFits q → proofC.enc q = none) :=
  ⟨lays_proof.ok h, lays_proof.long h⟩

/-- **C81.** The same for public parameters. -/
theorem C81_params_layout {q : WireParams} (h : ParamsTyped q) :
    (ParamsFits q → paramsC.enc q = some (params q)) ∧ (¬ ParamsFits q → paramsC.enc q = none) :=
  ⟨lays_params.ok h, lays_params.long h⟩

/-- **C81.** Decoding the bytes of a proof gives that proof and leaves whatever follows. -/
theorem C81_proof_roundtrip {q : WireProof} (h : ProofTyped q) (h' : ProofFits q) (rest : List Byte) :
    proofC.dec (proof q ++ rest) = some (q, rest) :=
  law_proof.round h (lays_proof.ok h h') rest

/-- **C81.** The same for public parameters. -/
theorem C81_params_roundtrip {q : WireParams} (h : ParamsTyped q) (h' : ParamsFits q) (rest : List Byte) :
    paramsC.dec (params q ++ rest) = some (q, rest) :=
  law_params.round h (lays_params.ok h h') rest

/-- **C81.** Whatever bytes decoding accepts are the bytes of the proof it returns: a proof has one encoding, and
decoding never reads past it. -/
theorem C81_proof_unique {bs rest : List Byte} {q : WireProof} (h : proofC.dec bs = some (q, rest)) :
    ProofTyped q ∧ ProofFits q ∧ bs = proof q ++ rest := by
  obtain ⟨hw, e, he, hb⟩ := law_proof.unique h
  by_cases hf : ProofFits q
  · rw [lays_proof.ok hw hf, Option.some.injEq] at he
    exact ⟨hw, hf, by rw [he]; exact hb⟩
  · rw [lays_proof.long hw hf] at he
    cases he

/-- **C81.** The same for public parameters. -/
theorem C81_params_unique {bs rest : List Byte} {q : WireParams} (h : paramsC.dec bs = some (q, rest)) :
    ParamsTyped q ∧ ParamsFits q ∧ bs = params q ++ rest := by
  obtain ⟨hw, e, he, hb⟩ := law_params.unique h
  by_cases hf : ParamsFits q
  · rw [lays_params.ok hw hf, Option.some.injEq] at he
    exact ⟨hw, hf, by rw [he]; exact hb⟩
  · rw [lays_params.long hw hf] at he
    cases he

/-- A proof after five steps with the generator of G1 as one commitment. -/
def scaleDemo : WireProof where
  i := 5
  z01 := [⟨1, 2, 3, 4⟩, ⟨0, 0, 0, 0⟩]
  z02 := []
  zi1 := [⟨7, 0, 0, 0⟩]
  zi2 := [⟨9, 0, 0, 2 ^ 60⟩]
  single2 := ⟨⟨⟨1, 0, 0, 0⟩, ⟨2, 0, 0, 0⟩, false⟩, [⟨3, 0, 0, 0⟩]⟩
  wsingle2 := []
  range1 := ⟨⟨⟨0, 0, 0, 0⟩, ⟨1, 0, 0, 0⟩, true⟩, ⟨⟨0, 0, 0, 0⟩, ⟨1, 0, 0, 0⟩, true⟩, ⟨1, 0, 0, 0⟩, []⟩
  wrange1 := ⟨[], [⟨0, 0, 0, 0⟩]⟩
  range2 := ⟨⟨⟨0, 0, 0, 0⟩, ⟨1, 0, 0, 0⟩, true⟩, ⟨⟨0, 0, 0, 0⟩, ⟨1, 0, 0, 0⟩, true⟩, ⟨1, 0, 0, 0⟩, []⟩
  wrange2 := ⟨[⟨4, 0, 0, 0⟩], []⟩

theorem scaleDemo_typed : ProofTyped scaleDemo ∧ ProofFits scaleDemo := by
  refine ⟨⟨?_, ?_, ?_, ?_, ?_, ?_, ?_, ?_, ?_, ?_, ?_⟩, ?_⟩ <;>
    simp [scaleDemo, Spec.Scale.Words, PointWords, RInstWords, L4.Wf, ProofFits]

example : proofC.dec (proof scaleDemo ++ [1, 2]) = some (scaleDemo, [1, 2]) :=
  C81_proof_roundtrip scaleDemo_typed.1 scaleDemo_typed.2 _

/-- Wrong bytes are refused: a flag of two, and a length written in a longer mode than it needs. -/
example : affC.dec (List.replicate 64 0 ++ [2]) = none ∧ denseC.dec [1, 0] = none := by decide

/-! ## C82: what decoding checks -/

/-- The words of an integer below `2^256`. -/
def wordsOf (n : Nat) : L4 := ⟨n % 2 ^ 64, n / 2 ^ 64 % 2 ^ 64, n / 2 ^ 128 % 2 ^ 64, n / 2 ^ 192 % 2 ^ 64⟩

theorem wordsOf_spec {n : Nat} (h : n < 2 ^ 256) : (wordsOf n).Wf ∧ (wordsOf n).val = n := by
  refine ⟨⟨?_, ?_, ?_, ?_⟩, ?_⟩ <;> simp only [wordsOf, L4.val] <;> omega

theorem modulus_room : 2 * frParams.m < 2 ^ 256 ∧ 2 * fqParams.m < 2 ^ 256 ∧ 0 < frParams.m := by decide +kernel

/-- **C82, first part, refuted.** Decoding accepts proofs whose points are not on the curve and whose field elements
are not below the modulus. -/
theorem C82_valid_refuted :
    ∃ (bs : List Byte) (q : WireProof), proofC.dec bs = some (q, []) ∧
      (∃ a ∈ q.z01, ¬ Canonical frParams a) ∧ q.range1.commitW.inf = false ∧
      denote fqParams q.range1.commitW.y ^ 2 ≠ denote fqParams q.range1.commitW.x ^ 3 + 3 := by
  let q : WireProof := { scaleDemo with
    z01 := [⟨2 ^ 64 - 1, 2 ^ 64 - 1, 2 ^ 64 - 1, 2 ^ 64 - 1⟩]
    range1 := { scaleDemo.range1 with commitW := ⟨⟨0, 0, 0, 0⟩, ⟨0, 0, 0, 0⟩, false⟩ } }
  have hq : ProofTyped q ∧ ProofFits q := by
    refine ⟨⟨?_, ?_, ?_, ?_, ?_, ?_, ?_, ?_, ?_, ?_, ?_⟩, ?_⟩ <;>
      simp [q, scaleDemo, Spec.Scale.Words, PointWords, RInstWords, L4.Wf, ProofFits]
  refine ⟨proof q, q, ?_, ⟨⟨2 ^ 64 - 1, 2 ^ 64 - 1, 2 ^ 64 - 1, 2 ^ 64 - 1⟩, by simp [q], ?_⟩, rfl, ?_⟩
  · have := C81_proof_roundtrip hq.1 hq.2 []
    rwa [List.append_nil] at this
  · intro h
    have h1 := h.2
    have h2 := modulus_room.1
    simp only [L4.val] at h1
    omega
  · have h0 : denote fqParams ⟨0, 0, 0, 0⟩ = 0 := by simp [denote, L4.val]
    show denote fqParams ⟨0, 0, 0, 0⟩ ^ 2 ≠ denote fqParams ⟨0, 0, 0, 0⟩ ^ 3 + 3
    rw [h0]
    intro h
    have h3 : ((3 : Nat) : ZMod fqParams.m) = 0 := by
      have : (0 : ZMod fqParams.m) = 3 := by
        rw [zero_pow (by norm_num), zero_pow (by norm_num), zero_add] at h
        exact h
      rw [Nat.cast_ofNat]; exact this.symm
    rw [ZMod.natCast_eq_zero_iff] at h3
    exact absurd h3 (by decide +kernel)

/-- **C82, second part, refuted.** Bytes do not determine the proof one way: for *every* proof with a canonical first
entry of `z0` there is another byte string, decoding to another struct, whose field elements stand for the same
residues. -/
theorem C82_twin_refuted {q : WireProof} (hq : ProofTyped q) (hf : ProofFits q) {a : L4} {t : List L4}
    (hz : q.z01 = a :: t) (ha : Canonical frParams a) :
    ∃ a', a' ≠ a ∧ denote frParams a' = denote frParams a ∧
      proof { q with z01 := a' :: t } ≠ proof q ∧
      ∀ rest, proofC.dec (proof { q with z01 := a' :: t } ++ rest) = some ({ q with z01 := a' :: t }, rest) := by
  have hr := modulus_room
  obtain ⟨h1, h2⟩ := wordsOf_spec (n := a.val + frParams.m) (by have := ha.2; omega)
  have hne : wordsOf (a.val + frParams.m) ≠ a := by
    intro h
    rw [h] at h2
    omega
  have hq' : ProofTyped { q with z01 := wordsOf (a.val + frParams.m) :: t } :=
    ⟨hq.i, by
      have := hq.z01
      rw [hz] at this
      intro b hb
      rcases List.mem_cons.1 hb with rfl | hb
      · exact h1
      · exact this b (List.mem_cons_of_mem _ hb), hq.z02, hq.zi1, hq.zi2, hq.single2, hq.wsingle2, hq.range1, hq.wrange1,
      hq.range2, hq.wrange2⟩
  have hf' : ProofFits { q with z01 := wordsOf (a.val + frParams.m) :: t } := by
    intro l hl
    have := hf q.z01 (by simp)
    rw [hz] at this
    simp only [List.mem_cons] at hl
    rcases hl with rfl | hl
    · simpa using this
    · exact hf l (by simp only [List.mem_cons]; exact Or.inr hl)
  refine ⟨wordsOf (a.val + frParams.m), hne, ?_, ?_, C81_proof_roundtrip hq' hf'⟩
  · rw [denote, denote, h2, Nat.cast_add, ZMod.natCast_self, add_zero]
  · intro h
    have e1 := C81_proof_roundtrip hq' hf' []
    rw [h, C81_proof_roundtrip hq hf []] at e1
    simp only [Option.some.injEq, Prod.mk.injEq, and_true] at e1
    have := congrArg WireProof.z01 e1
    rw [hz] at this
    simp only [List.cons.injEq, and_true] at this
    exact hne this.symm

/-- The hypotheses of `C82_twin_refuted` on the demo proof. -/
example : ∃ a', a' ≠ (⟨1, 2, 3, 4⟩ : L4) ∧ denote frParams a' = denote frParams ⟨1, 2, 3, 4⟩ := by
  obtain ⟨a', h1, h2, -⟩ := C82_twin_refuted (q := scaleDemo) (a := ⟨1, 2, 3, 4⟩) (t := [⟨0, 0, 0, 0⟩])
    scaleDemo_typed.1 scaleDemo_typed.2 rfl ⟨by decide, by decide +kernel⟩
  exact ⟨a', h1, h2⟩

/-- **C82, what holds.** A decoded proof has the types of the struct: every word is below `2^64`, every length below
`2^32`, and its size is bounded by the bytes read. -/
theorem C82_typed_partial {bs rest : List Byte} {q : WireProof} (h : proofC.dec bs = some (q, rest)) :
    ProofTyped q ∧ ProofFits q ∧
      32 * (q.z01.length + q.z02.length + q.zi1.length + q.zi2.length + q.single2.x.length + q.wsingle2.length +
        q.range1.x.length + q.wrange1.w.length + q.wrange1.e.length + q.range2.x.length + q.wrange2.w.length +
        q.wrange2.e.length) ≤ bs.length := by
  obtain ⟨h1, h2, rfl⟩ := C81_proof_unique h
  refine ⟨h1, h2, ?_⟩
  have hle : ∀ k n, (le k n).length = k := fun k n => by simp [le]
  have hf : ∀ a, (field a).length = 32 := fun a => by simp [field, hle]
  have hv : ∀ l : List L4, (Spec.Scale.vec field l).length = (compact l.length).length + 32 * l.length := fun l => by
    simp [Spec.Scale.vec, List.length_flatMap, hf, Nat.mul_comm]
  simp only [proof, rinst, List.length_append, hv]
  omega

end Kogarashi.Props
