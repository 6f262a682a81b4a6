import Verif.Nova.RawRun
import Verif.Props.BigNat
import Verif.Props.NovaStruct

/-!
# Property C93: native and in-circuit transcript with the arithmetic of the code

C56 says that the in-circuit transcript returns what the native one does, the native one running with exact squares.  The
native hash calls `square`, the gadget multiplies.  `squeezeS codeOps (conv P Q)` is the native transcript over the field `Q`,
squeezing into `P`, with the code's `square`; `sqSponge csq` lists what a run squares.  `mimcWords` are the round constants
`Mimc::default` derives.
-/

namespace Kogarashi.Props

open Kogarashi Spec Nova Nova.Raw Curve Kogarashi.Field Limbs

section
variable {P Q : FieldParams} [hvP : ValidWords P] [hvQ : ValidWords Q]

theorem circuit_squeeze {nb : Nat} (hnb : nb ≤ 256) (hlo : 2 ^ (nb - 1) < Q.m) (hhi : Q.m ≤ 2 ^ nb) (consts : List (Words Q))
    {cs : CS (ZMod Q.m)} (wf : Wf cs) (hs : Satisfies (stored cs) cs) {state : List (Row (ZMod Q.m))} (hr : ∀ r ∈ state, RowOk cs r)
    {st : List (Words Q)} (hst : state.map (rowVal (stored cs)) = st.map Words.hom) {n : Nat} (hn0 : 0 < n) (hn : n ≤ 256)
    (hp : 2 ^ n ≤ P.m) (hq : 2 ^ n ≤ Q.m) : ∃ o c, squeezeCirc nb (consts.map Words.hom) state n cs = some (o, c) ∧
      Satisfies (stored c) c ∧ (rowVal (stored c) o).val = (Words.hom (wSqueeze consts st n : Words P)).val := by
  obtain ⟨o, c, h1, h2, -, h3⟩ := C56_transcript (p := P.m) hnb hlo hhi (consts.map Words.hom) wf hs hr hn0 hn
  refine ⟨o, c, h1, h2, ?_⟩
  rw [h3 hp hq, hst, hom_squeeze]

/-- **C93, the part that holds.** When no squaring of the native run loses a carry, the in-circuit transcript, run on rows that
carry the absorbed elements, returns the integer the native one squeezes, and its constraints are satisfied. -/
theorem C93_transcript_partial {nb : Nat} (hnb : nb ≤ 256) (hlo : 2 ^ (nb - 1) < Q.m) (hhi : Q.m ≤ 2 ^ nb)
    (consts : List (Words Q)) {cs : CS (ZMod Q.m)} (wf : Wf cs) (hs : Satisfies (stored cs) cs) {state : List (Row (ZMod Q.m))}
    (hr : ∀ r ∈ state, RowOk cs r) {st : List (Words Q)} (hst : state.map (rowVal (stored cs)) = st.map Words.hom)
    (hex : ∀ x ∈ sqSponge csq consts st 0, Q.square x.limbs = Q.mul x.limbs x.limbs) {n : Nat} (hn0 : 0 < n) (hn : n ≤ 256)
    (hp : 2 ^ n ≤ P.m) (hq : 2 ^ n ≤ Q.m) : ∃ o c, squeezeCirc nb (consts.map Words.hom) state n cs = some (o, c) ∧
      Satisfies (stored c) c ∧
      (rowVal (stored c) o).val = (Words.hom (squeezeS codeOps (conv P Q) consts st n)).val := by
  obtain ⟨o, c, h1, h2, h3⟩ := circuit_squeeze (P := P) hnb hlo hhi consts wf hs hr hst hn0 hn hp hq
  have e : squeezeS codeOps (conv P Q) consts st n = squeezeS exactOps (conv P Q) consts st n :=
    squeezeS_eq (fun x hx => Words.ext (hex x hx)) n
  exact ⟨o, c, h1, h2, by rw [e, squeeze_words]; exact h3⟩

theorem squeeze_differs {nb : Nat} (hnb : nb ≤ 256) (hlo : 2 ^ (nb - 1) < Q.m) (hhi : Q.m ≤ 2 ^ nb) {consts : List (Words Q)}
    {cs : CS (ZMod Q.m)} (wf : Wf cs) (hs : Satisfies (stored cs) cs) {r : Row (ZMod Q.m)} (hr : RowOk cs r)
    {s : Words Q} (hst : rowVal (stored cs) r = Words.hom s) {n : Nat} (hn0 : 0 < n) (hn : n ≤ 256)
    (hp : 2 ^ n ≤ P.m) (hq : 2 ^ n ≤ Q.m)
    (hne : squeezeS codeOps (conv P Q) consts [s] n ≠ squeezeS exactOps (conv P Q) consts [s] n) :
    ∃ o c, squeezeCirc nb (consts.map Words.hom) [r] n cs = some (o, c) ∧ Satisfies (stored c) c ∧
      (rowVal (stored c) o).val ≠ (Words.hom (squeezeS codeOps (conv P Q) consts [s] n)).val := by
  obtain ⟨o, c, h1, h2, h3⟩ := circuit_squeeze (P := P) hnb hlo hhi consts wf hs
    (fun r' hr' => by rw [List.mem_singleton.mp hr']; exact hr) (st := [s])
    (by rw [List.map_cons, List.map_nil, List.map_cons, List.map_nil, hst]) hn0 hn hp hq
  refine ⟨o, c, h1, h2, fun e => hne ?_⟩
  rw [squeeze_words]
  exact hom_inj (ZMod.val_injective _ (e.symm.trans h3))

end

/-- **C93 is false of the code.** In both fields, with the round constants the library derives, there is an element such that
in every satisfied system with a row that carries it, the in-circuit transcript runs, its constraints are satisfied, and it returns
another 128-bit challenge than the native transcript. -/
theorem C93_transcript_refuted :
    (∃ s : Words frParams, ∀ {cs : CS FrV}, Wf cs → Satisfies (stored cs) cs → ∀ {r : Row FrV}, RowOk cs r →
      rowVal (stored cs) r = Words.hom s →
      ∃ o c, squeezeCirc 254 ((mimcWords frParams).map Words.hom) [r] challengeBits cs = some (o, c) ∧ Satisfies (stored c) c ∧
        (rowVal (stored c) o).val ≠
          (Words.hom (squeezeS codeOps (conv fqParams frParams) (mimcWords frParams) [s] challengeBits)).val) ∧
    (∃ s : Words fqParams, ∀ {cs : CS FqV}, Wf cs → Satisfies (stored cs) cs → ∀ {r : Row FqV}, RowOk cs r →
      rowVal (stored cs) r = Words.hom s →
      ∃ o c, squeezeCirc 254 ((mimcWords fqParams).map Words.hom) [r] challengeBits cs = some (o, c) ∧ Satisfies (stored c) c ∧
        (rowVal (stored c) o).val ≠
          (Words.hom (squeezeS codeOps (conv frParams fqParams) (mimcWords fqParams) [s] challengeBits)).val) := by
  refine ⟨⟨⟨badFr, badFr_canonical⟩, fun {_} wf hs {r} hr hst => ?_⟩, ⟨⟨badFq, badFq_canonical⟩, fun {_} wf hs {r} hr hst => ?_⟩⟩
  · exact squeeze_differs (P := fqParams) fr254.1 fr254.2 fr254.3 wf hs hr hst (by decide) (by decide) (by decide +kernel)
      (by decide +kernel) squeezeFr_ne
  · exact squeeze_differs (P := frParams) fq254.1 fq254.2 fq254.3 wf hs hr hst (by decide) (by decide) (by decide +kernel)
      (by decide +kernel) squeezeFq_ne

/-- **C93, the round constants.** For both fields the library derives 46 constants, no two of them equal. -/
theorem C93_constants : ((Blake.mimcConstants frParams).length = 46 ∧ (Blake.mimcConstants frParams).Nodup) ∧
    (Blake.mimcConstants fqParams).length = 46 ∧ (Blake.mimcConstants fqParams).Nodup := by
  rw [Blake.constsFr_eq, Blake.constsFq_eq]
  decide +kernel

/-- The bytes absorbed before the `k`-th constant is read: each iteration absorbs the digest of what was absorbed before. -/
def absorbedBytes : Nat → List Nat
  | 0 => []
  | k + 1 => absorbedBytes k ++ Blake.digest (absorbedBytes k)

theorem constLoop_get : ∀ (n k j : Nat), k < n → (Blake.constLoop n (absorbedBytes j))[k]? = some (Blake.digest (absorbedBytes (j + k + 1)))
  | 0, _, _, h => absurd h (Nat.not_lt_zero _)
  | n + 1, 0, _, _ => rfl
  | n + 1, k + 1, j, h => by
    have e := constLoop_get n k (j + 1) (Nat.lt_of_succ_lt_succ h)
    rw [show j + (k + 1) + 1 = j + 1 + k + 1 by omega, ← e]
    rfl

/-- **C93, the round constants.** The `k`-th constant stands for the 64-byte digest of everything absorbed by then, read as a
little-endian integer and reduced modulo the prime. -/
theorem C93_constant_value {P : FieldParams} (hP : ValidParams P) {k : Nat} (hk : k < 46) : ∃ a, (Blake.mimcConstants P)[k]? = some a ∧
    Canonical P a ∧ value P a = leValue 256 (Blake.digest (absorbedBytes (k + 1))) % P.m := by
  have e := constLoop_get 46 k 0 hk
  rw [Nat.zero_add] at e
  have hb : ∀ i < 64, (Blake.digest (absorbedBytes (k + 1))).getD i 0 < 256 := fun i _ => digest_byte _ i
  obtain ⟨h1, h2, -⟩ := C06_from_bytes_wide hP hb
  refine ⟨_, ?_, h1, ?_⟩
  · unfold Blake.mimcConstants
    rw [List.getElem?_map]
    show Option.map _ (Blake.constLoop 46 (absorbedBytes 0))[k]? = _
    rw [e]
    rfl
  · rw [h2]
    congr 2

/-- C93: a system with the bad element as an instance meets the hypotheses, and so does one with an element whose run loses no
carry. -/
example : (∃ (cs : CS FrV) (r : Row FrV), Wf cs ∧ Satisfies (stored cs) cs ∧ RowOk cs r ∧
      rowVal (stored cs) r = Words.hom (⟨badFr, badFr_canonical⟩ : Words frParams)) ∧
    ∀ x ∈ sqSponge csq ([⟨badFr, badFr_canonical⟩, 1] : List (Words frParams)) [1, 1 + 1] 0,
      frParams.square x.limbs = frParams.mul x.limbs x.limbs := by
  refine ⟨⟨⟨[1, Words.hom (⟨badFr, badFr_canonical⟩ : Words frParams)], [], []⟩, [(.inst 1, 1)], ⟨rfl, ?_⟩, ⟨rfl, ?_⟩, ?_, ?_⟩, ?_⟩
  · intro k hk; cases hk
  · intro k hk; cases hk
  · generalize Words.hom (⟨badFr, badFr_canonical⟩ : Words frParams) = v
    refine ⟨List.nodup_singleton _, fun e he => ?_⟩
    rw [List.mem_singleton.mp he]
    exact Nat.lt_succ_self 1
  · generalize Words.hom (⟨badFr, badFr_canonical⟩ : Words frParams) = v
    simp [rowVal, stored, CS.get, Row.readWire]
  · decide +kernel

end Kogarashi.Props
