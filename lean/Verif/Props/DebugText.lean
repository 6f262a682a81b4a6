import Verif.Field.DebugText
import Verif.Field.Value

/-!
# Property C118: the text printed for field elements and wires

A reader of a log relies on the printed text: it must show the value of the element, in the usual
notation, and different elements must print differently.
-/

namespace Kogarashi.Props

open Kogarashi Spec Limbs Kogarashi.Field Text Tower

/-- Specification: the value of a hexadecimal digit; `none` for other characters. -/
def hexDigitValue (c : Char) : Option Nat :=
  if '0' ≤ c ∧ c ≤ '9' then some (c.toNat - '0'.toNat)
  else if 'a' ≤ c ∧ c ≤ 'f' then some (c.toNat - 'a'.toNat + 10)
  else none

/-- Specification: reading a hexadecimal numeral, most significant digit first. -/
def readHexFrom : Nat → List Char → Option Nat
  | acc, [] => some acc
  | acc, c :: cs => (hexDigitValue c).bind fun d => readHexFrom (16 * acc + d) cs

theorem hexDigitValue_hexDigit : ∀ n < 16, hexDigitValue (hexDigit n) = some n := by decide

theorem readHexFrom_hex02 (acc : Nat) {b : Nat} (hb : b < 256) (rest : List Char) :
    readHexFrom acc (hex02 b ++ rest) = readHexFrom (256 * acc + b) rest := by
  simp only [hex02, List.cons_append, List.nil_append, readHexFrom,
    hexDigitValue_hexDigit (b / 16) (by omega), hexDigitValue_hexDigit (b % 16) (by omega), Option.bind_some]
  congr 1
  omega

theorem readHexFrom_bytes : ∀ (bs : List Nat) (acc : Nat) (rest : List Char), (∀ b ∈ bs, b < 256) →
    readHexFrom acc (bs.flatMap hex02 ++ rest) = readHexFrom (bs.foldl (fun a b => 256 * a + b) acc) rest
  | [], _, _, _ => rfl
  | b :: bs, acc, rest, h => by
    rw [List.flatMap_cons, List.append_assoc, readHexFrom_hex02 _ (h b (by simp)),
      readHexFrom_bytes bs _ _ fun x hx => h x (by simp [hx])]
    rfl

theorem readHexFrom_limb (acc : Nat) {l : Nat} (hl : l < 2 ^ 64) (rest : List Char) :
    readHexFrom acc ((beBytes8 l).flatMap hex02 ++ rest) = readHexFrom (2 ^ 64 * acc + l) rest := by
  rw [readHexFrom_bytes _ _ _ (by
    intro b hb
    simp only [beBytes8, List.mem_map] at hb
    obtain ⟨i, -, rfl⟩ := hb
    exact Nat.mod_lt _ (by norm_num))]
  congr 1
  simp only [beBytes8, List.range, List.range.loop, List.map_cons, List.map_nil, List.foldl_cons, List.foldl_nil]
  norm_num
  omega

theorem hexLimbs_length (r : L4) : (hexLimbs r).length = 64 := by
  have h : ∀ l, ((beBytes8 l).flatMap hex02).length = 16 := fun l => rfl
  simp only [hexLimbs, List.reverse_cons, List.reverse_nil, List.nil_append, List.cons_append,
    List.flatMap_cons, List.flatMap_nil, List.length_append, List.length_nil, h]

theorem readHexFrom_hexLimbs {r : L4} (h : r.Wf) : readHexFrom 0 (hexLimbs r) = some r.val := by
  obtain ⟨h0, h1, h2, h3⟩ := h
  simp only [hexLimbs, List.reverse_cons, List.reverse_nil, List.nil_append, List.cons_append,
    List.flatMap_cons, List.flatMap_nil]
  rw [readHexFrom_limb _ h3, readHexFrom_limb _ h2, readHexFrom_limb _ h1, readHexFrom_limb _ h0]
  simp only [readHexFrom, L4.val]
  congr 1
  ring

/-- **C118.** The text of a field element is `0x` and exactly 64 further characters, and reading
those as a hexadecimal numeral gives the value of the element (all digits are therefore lower-case
hexadecimal digits). -/
theorem C118_field {P : FieldParams} (hP : ValidParams P) {a : L4} (ha : Canonical P a) :
    ∃ digits, debugField P a = '0' :: 'x' :: digits ∧ digits.length = 64 ∧
      readHexFrom 0 digits = some (value P a) := by
  obtain ⟨⟨h, -⟩, hv⟩ := montgomeryReduce_value hP ha
  exact ⟨_, rfl, hexLimbs_length _, hv ▸ readHexFrom_hexLimbs h⟩

example := C118_field frParams_valid (r_canonical frParams_valid)
example : String.ofList (debugField frParams (frParams.fromU64 0xdeadbeef)) =
    "0x00000000000000000000000000000000000000000000000000000000deadbeef" := by decide +kernel

theorem debugField_length (P : FieldParams) (a : L4) : (debugField P a).length = 66 := by
  rw [debugField, List.length_cons, List.length_cons, hexLimbs_length]

/-- **C118.** Different elements print differently. -/
theorem C118_distinct {P : FieldParams} (hP : ValidParams P) {a b : L4} (ha : Canonical P a) (hb : Canonical P b) :
    debugField P a = debugField P b ↔ a = b := by
  refine ⟨fun h => ?_, fun h => h ▸ rfl⟩
  obtain ⟨da, ea, -, va⟩ := C118_field hP ha
  obtain ⟨db, eb, -, vb⟩ := C118_field hP hb
  have hd : da = db := by
    have := ea.symm.trans (h.trans eb)
    simpa using this
  subst hd
  exact value_inj hP ha hb (Option.some.inj (va.symm.trans vb))

example := C118_distinct fqParams_valid (r_canonical fqParams_valid) (zero_canonical fqParams_valid)

/-! ### Extension fields -/

theorem append_inj3 {α : Type} {a a' s b b' t : List α} (h : a ++ s ++ b ++ t = a' ++ s ++ b' ++ t)
    (ha : a.length = a'.length) : a = a' ∧ b = b' := by
  rw [List.append_left_inj, List.append_assoc, List.append_assoc] at h
  obtain ⟨h1, h2⟩ := List.append_inj h ha
  exact ⟨h1, List.append_cancel_left h2⟩

section
variable {R : Type} {d : R → List Char} {n : Nat}

theorem debugFq2_length (hd : ∀ x, (d x).length = n) (a : Fq2 R) : (debugFq2 d a).length = 2 * n + 5 := by
  simp [debugFq2, hd]; omega

theorem debugFq6_length (hd : ∀ x, (d x).length = n) (a : Fq6 R) : (debugFq6 d a).length = 6 * n + 31 := by
  simp [debugFq6, debugFq2_length hd]; omega

variable {S : R → Prop} (hd : ∀ x, (d x).length = n) (hi : ∀ x y, S x → S y → d x = d y → x = y)

/-- All base field coefficients of an `Fq2` satisfy `S`. -/
def Fq2All (S : R → Prop) (a : Fq2 R) : Prop := S a.c0 ∧ S a.c1
/-- All base field coefficients of an `Fq6` satisfy `S`. -/
def Fq6All (S : R → Prop) (a : Fq6 R) : Prop := Fq2All S a.c0 ∧ Fq2All S a.c1 ∧ Fq2All S a.c2
/-- All base field coefficients of an `Fq12` satisfy `S`. -/
def Fq12All (S : R → Prop) (a : Fq12 R) : Prop := Fq6All S a.c0 ∧ Fq6All S a.c1

include hd hi

theorem debugFq2_inj (a b : Fq2 R) (ha : Fq2All S a) (hb : Fq2All S b) (h : debugFq2 d a = debugFq2 d b) : a = b := by
  obtain ⟨h1, h2⟩ := append_inj3 h (by rw [hd, hd])
  exact Fq2.ext (hi _ _ ha.1 hb.1 h1) (hi _ _ ha.2 hb.2 h2)

theorem debugFq6_inj (a b : Fq6 R) (ha : Fq6All S a) (hb : Fq6All S b) (h : debugFq6 d a = debugFq6 d b) : a = b := by
  have hl := debugFq2_length hd
  obtain ⟨h1, h2⟩ := append_inj3 h (by simp [hl])
  obtain ⟨h3, h4⟩ := List.append_inj h1 (by simp [hl])
  obtain ⟨h5, -⟩ := List.append_inj h3 (by rw [hl, hl])
  exact Fq6.ext (debugFq2_inj hd hi _ _ ha.1 hb.1 h5) (debugFq2_inj hd hi _ _ ha.2.1 hb.2.1 h4)
    (debugFq2_inj hd hi _ _ ha.2.2 hb.2.2 h2)

theorem debugFq12_inj (a b : Fq12 R) (ha : Fq12All S a) (hb : Fq12All S b) (h : debugFq12 d a = debugFq12 d b) :
    a = b := by
  have hl := debugFq6_length hd
  obtain ⟨h1, h2⟩ := append_inj3 h (by rw [hl, hl])
  exact Fq12.ext (debugFq6_inj hd hi _ _ ha.1 hb.1 h1) (debugFq6_inj hd hi _ _ ha.2 hb.2 h2)

end

/-- **C118.** The elements of the three extension fields also print differently when they differ:
the text shows every coefficient. -/
theorem C118_tower :
    (∀ a b : Fq2 L4, Fq2All (Canonical fqParams) a → Fq2All (Canonical fqParams) b →
      (debugFq2 (debugField fqParams) a = debugFq2 (debugField fqParams) b ↔ a = b)) ∧
    (∀ a b : Fq6 L4, Fq6All (Canonical fqParams) a → Fq6All (Canonical fqParams) b →
      (debugFq6 (debugField fqParams) a = debugFq6 (debugField fqParams) b ↔ a = b)) ∧
    (∀ a b : Fq12 L4, Fq12All (Canonical fqParams) a → Fq12All (Canonical fqParams) b →
      (debugFq12 (debugField fqParams) a = debugFq12 (debugField fqParams) b ↔ a = b)) := by
  have hi : ∀ x y, Canonical fqParams x → Canonical fqParams y → debugField fqParams x = debugField fqParams y → x = y :=
    fun x y hx hy => (C118_distinct fqParams_valid hx hy).1
  have hd := debugField_length fqParams
  exact ⟨fun a b ha hb => ⟨debugFq2_inj hd hi a b ha hb, fun h => h ▸ rfl⟩,
    fun a b ha hb => ⟨debugFq6_inj hd hi a b ha hb, fun h => h ▸ rfl⟩,
    fun a b ha hb => ⟨debugFq12_inj hd hi a b ha hb, fun h => h ▸ rfl⟩⟩

example := C118_tower.1 ⟨fqParams.one, FieldParams.zero⟩ ⟨FieldParams.zero, fqParams.one⟩
  ⟨r_canonical fqParams_valid, zero_canonical fqParams_valid⟩ ⟨zero_canonical fqParams_valid, r_canonical fqParams_valid⟩

/-- What the text looks like, with small numbers for the coefficients. -/
example : String.ofList (debugFq12 (Nat.toDigits 10)
      ⟨⟨⟨1, 2⟩, ⟨3, 4⟩, ⟨5, 6⟩⟩, ⟨⟨7, 8⟩, ⟨9, 10⟩, ⟨11, 12⟩⟩⟩) =
    "1 + 2 u + (3 + 4 u) v + (5 + 6 u) v^2 + (7 + 8 u + (9 + 10 u) v + (11 + 12 u) v^2) w" := by decide +kernel

/-- **C118.** The constant `MODULUS` is the exception: it is not equal to zero for `==`, which compares
the limbs, and yet prints like zero. -/
theorem C118_modulus :
    (frParams.p ≠ FieldParams.zero ∧ debugField frParams frParams.p = debugField frParams FieldParams.zero) ∧
    (fqParams.p ≠ FieldParams.zero ∧ debugField fqParams fqParams.p = debugField fqParams FieldParams.zero) := by
  decide +kernel

/-! ### Wires -/

/-- **C118.** Two wires print alike only if they are the same wire, and what follows the kind of the
wire is its index in decimal notation. -/
theorem C118_wire (a b : Wire) :
    (displayWire a = displayWire b ↔ a = b) ∧
    (∀ i, displayWire (.inst i) = "instance ".toList ++ (toString i).toList) ∧
    (∀ i, displayWire (.wit i) = "witness ".toList ++ (toString i).toList) := by
  have hinj : ∀ i j, Nat.toDigits 10 i = Nat.toDigits 10 j → i = j := fun i j h => by
    rw [← Nat.ofDigitChars_ten_toDigits (n := i), h, Nat.ofDigitChars_ten_toDigits]
  have e : ∀ n : Nat, (toString n).toList = Nat.toDigits 10 n := fun n => by
    rw [Nat.toString_eq_repr, Nat.toList_repr]
  have hi : "instance ".toList = ['i', 'n', 's', 't', 'a', 'n', 'c', 'e', ' '] := by decide
  have hw : "witness ".toList = ['w', 'i', 't', 'n', 'e', 's', 's', ' '] := by decide
  have hne : ∀ l l' : List Char, "instance ".toList ++ l ≠ "witness ".toList ++ l' := fun l l' h => by
    rw [hi, hw, List.cons_append, List.cons_append] at h
    exact absurd (List.cons.inj h).1 (by decide)
  refine ⟨⟨fun h => ?_, fun h => h ▸ rfl⟩, fun i => by rw [e]; rfl, fun i => by rw [e]; rfl⟩
  cases a <;> cases b
  · exact congrArg _ (hinj _ _ (List.append_cancel_left h))
  · exact absurd h (hne _ _)
  · exact absurd h.symm (hne _ _)
  · exact congrArg _ (hinj _ _ (List.append_cancel_left h))

example : String.ofList (displayWire (.wit 120)) = "witness 120" := by decide +kernel

end Kogarashi.Props
