import Verif.Wire.ScaleTower
import Verif.Props.Scale

/-! # Property C81 for the structs of BN254 -/

namespace Kogarashi.Props

open Kogarashi Limbs Curve Tower Scale Spec.Scale

/-- Specification: 64 bytes. -/
def fq2Bytes (a : Fq2 L4) : List Byte := field a.c0 ++ field a.c1
/-- Specification: 192 bytes. -/
def fq6Bytes (a : Fq6 L4) : List Byte := fq2Bytes a.c0 ++ fq2Bytes a.c1 ++ fq2Bytes a.c2
/-- Specification: 384 bytes. -/
def fq12Bytes (a : Fq12 L4) : List Byte := fq6Bytes a.c0 ++ fq6Bytes a.c1
/-- Specification: 96 bytes. -/
def projBytes (a : Proj L4) : List Byte := field a.x ++ field a.y ++ field a.z
/-- Specification: 129 bytes. -/
def g2AffBytes (a : Aff (Fq2 L4)) : List Byte := fq2Bytes a.x ++ fq2Bytes a.y ++ [if a.inf then 1 else 0]
/-- Specification: 192 bytes. -/
def g2ProjBytes (a : Proj (Fq2 L4)) : List Byte := fq2Bytes a.x ++ fq2Bytes a.y ++ fq2Bytes a.z
/-- Specification: the coefficients, then the flag. -/
def g2PairingBytes (a : G2Pairing L4) : List Byte :=
  vec (fun c : PairingCoeff L4 => fq2Bytes c.e0 ++ fq2Bytes c.e1 ++ fq2Bytes c.e2) a.coeffs ++ [if a.isInfinity then 1 else 0]

/-- The words of an element of `Fq2`. -/
def Fq2Words (a : Fq2 L4) : Prop := a.c0.Wf ∧ a.c1.Wf
/-- The words of an element of `Fq6`. -/
def Fq6Words (a : Fq6 L4) : Prop := Fq2Words a.c0 ∧ Fq2Words a.c1 ∧ Fq2Words a.c2
/-- The words of an element of `Fq12`. -/
def Fq12Words (a : Fq12 L4) : Prop := Fq6Words a.c0 ∧ Fq6Words a.c1
/-- The words of prepared coefficients. -/
def G2PairingWords (a : G2Pairing L4) : Prop := ∀ c ∈ a.coeffs, Fq2Words c.e0 ∧ Fq2Words c.e1 ∧ Fq2Words c.e2

theorem law_fq2 : Lawful fq2C Fq2Words := (law_field.pair law_field).iso (fun _ => rfl) fun _ => rfl
theorem law_fq6 : Lawful fq6C Fq6Words := (law_fq2.pair (law_fq2.pair law_fq2)).iso (fun _ => rfl) fun _ => rfl
theorem law_fq12 : Lawful fq12C Fq12Words := (law_fq6.pair law_fq6).iso (fun _ => rfl) fun _ => rfl
theorem law_proj : Lawful projC (fun a => a.x.Wf ∧ a.y.Wf ∧ a.z.Wf) :=
  (law_field.pair (law_field.pair law_field)).iso (fun _ => rfl) fun _ => rfl
theorem law_g2Aff : Lawful g2AffC (fun a => Fq2Words a.x ∧ Fq2Words a.y) :=
  ((law_fq2.pair (law_fq2.pair boolC_lawful)).iso (fun _ => rfl) fun _ => rfl).mono fun a => by simp
theorem law_g2Proj : Lawful g2ProjC (fun a => Fq2Words a.x ∧ Fq2Words a.y ∧ Fq2Words a.z) :=
  (law_fq2.pair (law_fq2.pair law_fq2)).iso (fun _ => rfl) fun _ => rfl
theorem law_coeff : Lawful coeffC (fun a => Fq2Words a.e0 ∧ Fq2Words a.e1 ∧ Fq2Words a.e2) :=
  (law_fq2.pair (law_fq2.pair law_fq2)).iso (fun _ => rfl) fun _ => rfl
theorem law_g2Pairing : Lawful g2PairingC G2PairingWords :=
  ((law_coeff.vec.pair boolC_lawful).iso (fun _ => rfl) fun _ => rfl).mono fun a => by simp [G2PairingWords]

theorem lays_fq2 : Lays fq2C Fq2Words (fun _ => True) fq2Bytes :=
  ((lays_field.pair lays_field).iso _ _).congr (fun _ h => h) (fun _ => by simp) fun _ => rfl
theorem lays_fq6 : Lays fq6C Fq6Words (fun _ => True) fq6Bytes :=
  ((lays_fq2.pair (lays_fq2.pair lays_fq2)).iso _ _).congr (fun _ h => h) (fun _ => by simp) fun _ => by simp [fq6Bytes]
theorem lays_fq12 : Lays fq12C Fq12Words (fun _ => True) fq12Bytes :=
  ((lays_fq6.pair lays_fq6).iso _ _).congr (fun _ h => h) (fun _ => by simp) fun _ => rfl
theorem lays_proj : Lays projC (fun a => a.x.Wf ∧ a.y.Wf ∧ a.z.Wf) (fun _ => True) projBytes :=
  ((lays_field.pair (lays_field.pair lays_field)).iso _ _).congr (fun _ h => h) (fun _ => by simp)
    fun _ => by simp [projBytes]
theorem lays_g2Aff : Lays g2AffC (fun a => Fq2Words a.x ∧ Fq2Words a.y) (fun _ => True) g2AffBytes :=
  ((lays_fq2.pair (lays_fq2.pair lays_bool)).iso _ _).congr (fun _ h => ⟨h.1, h.2, trivial⟩) (fun _ => by simp)
    fun _ => by simp [g2AffBytes]
theorem lays_g2Proj : Lays g2ProjC (fun a => Fq2Words a.x ∧ Fq2Words a.y ∧ Fq2Words a.z) (fun _ => True) g2ProjBytes :=
  ((lays_fq2.pair (lays_fq2.pair lays_fq2)).iso _ _).congr (fun _ h => h) (fun _ => by simp) fun _ => by simp [g2ProjBytes]
theorem lays_coeff : Lays coeffC (fun a => Fq2Words a.e0 ∧ Fq2Words a.e1 ∧ Fq2Words a.e2) (fun _ => True)
    (fun c => fq2Bytes c.e0 ++ fq2Bytes c.e1 ++ fq2Bytes c.e2) :=
  ((lays_fq2.pair (lays_fq2.pair lays_fq2)).iso _ _).congr (fun _ h => h) (fun _ => by simp) fun _ => by simp
theorem lays_g2Pairing : Lays g2PairingC G2PairingWords (fun a => a.coeffs.length < 2 ^ 32) g2PairingBytes :=
  ((lays_coeff.vec.pair lays_bool).iso _ _).congr (fun _ h => ⟨h, trivial⟩) (fun _ => by simp) fun _ => rfl

/-- What C81 says of a type whose encoding cannot fail: the bytes, the way back, and that there is no other way. -/
def Faithful {α : Type} (c : Codec α) (typed : α → Prop) (bytes : α → List Byte) : Prop :=
  (∀ a, typed a → c.enc a = some (bytes a) ∧ ∀ rest, c.dec (bytes a ++ rest) = some (a, rest)) ∧
  ∀ bs a rest, c.dec bs = some (a, rest) → typed a ∧ bs = bytes a ++ rest

theorem faithful {α : Type} {c : Codec α} {typed : α → Prop} {bytes : α → List Byte} (h : Lawful c typed)
    (h' : Lays c typed (fun _ => True) bytes) : Faithful c typed bytes := by
  refine ⟨fun a ha => ⟨h'.ok ha trivial, fun rest => h.round ha (h'.ok ha trivial) rest⟩, fun bs a rest hd => ?_⟩
  obtain ⟨hw, e, he, hb⟩ := h.unique hd
  rw [h'.ok hw trivial, Option.some.injEq] at he
  exact ⟨hw, by rw [he]; exact hb⟩

/-- **C81.** Field elements, extension field elements and points of G1, G2 and Grumpkin, affine and projective. -/
theorem C81_groups :
    Faithful fieldC L4.Wf field ∧ Faithful fq2C Fq2Words fq2Bytes ∧ Faithful fq6C Fq6Words fq6Bytes ∧
    Faithful fq12C Fq12Words fq12Bytes ∧ Faithful affC PointWords point ∧
    Faithful projC (fun a => a.x.Wf ∧ a.y.Wf ∧ a.z.Wf) projBytes ∧
    Faithful g2AffC (fun a => Fq2Words a.x ∧ Fq2Words a.y) g2AffBytes ∧
    Faithful g2ProjC (fun a => Fq2Words a.x ∧ Fq2Words a.y ∧ Fq2Words a.z) g2ProjBytes :=
  ⟨faithful law_field lays_field, faithful law_fq2 lays_fq2, faithful law_fq6 lays_fq6, faithful law_fq12 lays_fq12,
    faithful law_point lays_point, faithful law_proj lays_proj, faithful law_g2Aff lays_g2Aff,
    faithful law_g2Proj lays_g2Proj⟩

/-- **C81.** Prepared points of G2. -/
theorem C81_prepared :
    (∀ a, G2PairingWords a → a.coeffs.length < 2 ^ 32 → g2PairingC.enc a = some (g2PairingBytes a) ∧
      ∀ rest, g2PairingC.dec (g2PairingBytes a ++ rest) = some (a, rest)) ∧
    ∀ bs a rest, g2PairingC.dec bs = some (a, rest) → G2PairingWords a ∧ bs = g2PairingBytes a ++ rest := by
  refine ⟨fun a ha hl => ⟨lays_g2Pairing.ok ha hl, fun rest => law_g2Pairing.round ha (lays_g2Pairing.ok ha hl) rest⟩,
    fun bs a rest hd => ?_⟩
  obtain ⟨hw, e, he, hb⟩ := law_g2Pairing.unique hd
  by_cases hl : a.coeffs.length < 2 ^ 32
  · rw [lays_g2Pairing.ok hw hl, Option.some.injEq] at he
    exact ⟨hw, by rw [he]; exact hb⟩
  · rw [lays_g2Pairing.long hw hl] at he
    cases he

/-- The sizes in the comments. -/
theorem C81_sizes (p : RawAff) (a : Fq12 L4) (q : Aff (Fq2 L4)) :
    (point p).length = 65 ∧ (fq12Bytes a).length = 384 ∧ (g2AffBytes q).length = 129 := by
  have hf : ∀ a, (field a).length = 32 := fun a => by simp only [field, le, List.length_append, List.length_ofFn]
  simp only [point, fq12Bytes, fq6Bytes, fq2Bytes, g2AffBytes, List.length_append, hf, List.length_singleton, and_self]

/-- A struct of words: the hypotheses above are met by other values than zero. -/
example : g2AffC.dec (g2AffBytes ⟨⟨⟨1, 2, 3, 4⟩, ⟨5, 6, 7, 8⟩⟩, ⟨⟨9, 0, 0, 0⟩, ⟨0, 0, 0, 2 ^ 63⟩⟩, false⟩ ++ [7]) =
    some (⟨⟨⟨1, 2, 3, 4⟩, ⟨5, 6, 7, 8⟩⟩, ⟨⟨9, 0, 0, 0⟩, ⟨0, 0, 0, 2 ^ 63⟩⟩, false⟩, [7]) :=
  (C81_groups.2.2.2.2.2.2.1.1 _ ⟨⟨by decide, by decide⟩, by decide, by decide⟩).2 _

end Kogarashi.Props
