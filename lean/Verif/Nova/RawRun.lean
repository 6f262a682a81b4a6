import Verif.Nova.RawProof
import Verif.Nova.BlakeRun

/-!
# Runs of the transcript on limbs

The transcript over limb arrays, without the proofs of canonicity, and the runs the kernel evaluates.
-/

namespace Kogarashi.Nova.Raw

open Kogarashi Spec Curve Kogarashi.Field Limbs

section
variable {A : Type} (add mul : A → A → A) (s : A → A)

/-- `mimcS` over any representation. -/
def mimcL : List A → A → A → A
  | [], xl, _ => xl
  | c :: cs, xl, xr =>
    mimcL cs (add (mul (mul (s (add xl c)) (s (s (add xl c)))) (add xl c)) xr) xl

/-- `spongeS` over any representation. -/
def spongeL (consts : List A) : List A → A → A
  | [], acc => acc
  | x :: xs, acc => spongeL consts xs (add (add acc x) (mimcL add mul s consts x acc))

variable {F : Type} [_root_.Field F] {f : F → A} {add mul} {t : F → F} {s}

theorem rep_mimc (ha : ∀ a b, f (a + b) = add (f a) (f b)) (hm : ∀ a b, f (a * b) = mul (f a) (f b))
    (h : ∀ a, f (t a) = s (f a)) : ∀ (cs : List F) (xl xr : F), f (mimcS t cs xl xr) = mimcL add mul s (cs.map f) (f xl) (f xr)
  | [], _, _ => rfl
  | c :: cs, xl, xr => by
    rw [mimcS, rep_mimc ha hm h cs, List.map_cons, mimcL]
    simp only [ha, hm, h]

theorem rep_sponge (ha : ∀ a b, f (a + b) = add (f a) (f b)) (hm : ∀ a b, f (a * b) = mul (f a) (f b))
    (h : ∀ a, f (t a) = s (f a)) (cs : List F) : ∀ (xs : List F) (acc : F),
    f (spongeS t cs xs acc) = spongeL add mul s (cs.map f) (xs.map f) (f acc)
  | [], _ => rfl
  | x :: xs, acc => by
    rw [spongeS, rep_sponge ha hm h cs xs, List.map_cons, spongeL, ha, ha, rep_mimc ha hm h]

end

section
variable {P : FieldParams} [hv : ValidWords P]

theorem limbs_add (a b : Words P) : (a + b).limbs = P.add a.limbs b.limbs := rfl
theorem limbs_mul (a b : Words P) : (a * b).limbs = P.mul a.limbs b.limbs := rfl
theorem limbs_csq (a : Words P) : (csq a).limbs = P.square a.limbs := rfl
theorem limbs_sq (a : Words P) : (Curve.sq a).limbs = P.mul a.limbs a.limbs := limbs_mul a a

theorem limbs_code (cs xs : List (Words P)) : (spongeS (codeOps (P := P)).sq cs xs 0).limbs =
    spongeL P.add P.mul P.square (cs.map Words.limbs) (xs.map Words.limbs) FieldParams.zero :=
  rep_sponge limbs_add limbs_mul limbs_csq cs xs 0

theorem limbs_exact (cs xs : List (Words P)) : (spongeS (exactOps (F := Words P)).sq cs xs 0).limbs =
    spongeL P.add P.mul (fun x => P.mul x x) (cs.map Words.limbs) (xs.map Words.limbs) FieldParams.zero :=
  rep_sponge limbs_add limbs_mul limbs_sq cs xs 0

theorem limbs_consts (P : FieldParams) [ValidWords P] : (mimcWords P).map Words.limbs = Blake.mimcConstants P := by
  unfold mimcWords
  rw [List.map_map]
  have : ∀ (l : List L4) (h : ∀ a ∈ l, Canonical P a), l.attach.map (Words.limbs ∘ fun a => (⟨a.1, h a.1 a.2⟩ : Words P)) = l := by
    intro l h
    exact (List.attach_map_subtype_val l)
  exact this _ (mimcConstants_canonical P)

/-- Squeezing with the two arithmetics, given the limbs of the two sponges. -/
theorem squeeze_ne {P Q : FieldParams} [ValidWords P] [ValidWords Q] {cs st : List (Words Q)} {n : Nat} {u v : L4}
    (hu : spongeL Q.add Q.mul Q.square (cs.map Words.limbs) (st.map Words.limbs) FieldParams.zero = u)
    (hv : spongeL Q.add Q.mul (fun x => Q.mul x x) (cs.map Words.limbs) (st.map Words.limbs) FieldParams.zero = v)
    (hn : (wReadBits ((Q.toBits u).reverse.take n) 1 0 : Words P) ≠ wReadBits ((Q.toBits v).reverse.take n) 1 0) :
    squeezeS codeOps (conv P Q) cs st n ≠ squeezeS exactOps (conv P Q) cs st n := by
  have e1 := (limbs_code cs st).trans hu
  have e2 := (limbs_exact cs st).trans hv
  unfold squeezeS
  generalize spongeS (codeOps (P := Q)).sq cs st 0 = a at e1 ⊢
  generalize spongeS (exactOps (F := Words Q)).sq cs st 0 = c at e2 ⊢
  subst e1 e2
  exact hn

end

/-! ### Runs with the derived constants -/

/-- An element of Fr that the first round of the hash turns into a value whose square loses a carry. -/
def badFr : L4 := ⟨8285651388745265082, 16047917939424528140, 204105885720383913, 797435726413206113⟩
/-- An element of Fq that does the same. -/
def badFq : L4 := ⟨4009565107453435481, 17201074616178680724, 2545427516242973501, 2095706990518525803⟩

theorem badFr_canonical : Canonical frParams badFr := by unfold Canonical; decide +kernel
theorem badFq_canonical : Canonical fqParams badFq := by unfold Canonical; decide +kernel

theorem runFr_code : spongeL frParams.add frParams.mul frParams.square Blake.constsFr [badFr] FieldParams.zero =
    ⟨13774834149555441515, 4645700902667075679, 10015511950985580912, 33201638159120642⟩ := by decide +kernel
theorem runFr_exact : spongeL frParams.add frParams.mul (fun x => frParams.mul x x) Blake.constsFr [badFr] FieldParams.zero =
    ⟨14127231062149795959, 14948350995861918363, 2009383535963276138, 71295027454946077⟩ := by decide +kernel
theorem runFq_code : spongeL fqParams.add fqParams.mul fqParams.square Blake.constsFq [badFq] FieldParams.zero =
    ⟨8085744761898299528, 15657121414594735247, 18207360504838964110, 2612955660355409002⟩ := by decide +kernel
theorem runFq_exact : spongeL fqParams.add fqParams.mul (fun x => fqParams.mul x x) Blake.constsFq [badFq] FieldParams.zero =
    ⟨5139372970577254091, 7556154626559722448, 5922112679484252486, 1243132779140814094⟩ := by decide +kernel

theorem squeezeFr_ne : squeezeS codeOps (conv fqParams frParams) (mimcWords frParams) [⟨badFr, badFr_canonical⟩] challengeBits ≠
    squeezeS exactOps (conv fqParams frParams) (mimcWords frParams) [⟨badFr, badFr_canonical⟩] challengeBits := by
  refine squeeze_ne (u := ⟨13774834149555441515, 4645700902667075679, 10015511950985580912, 33201638159120642⟩)
    (v := ⟨14127231062149795959, 14948350995861918363, 2009383535963276138, 71295027454946077⟩) ?_ ?_ ?_
  · rw [limbs_consts, Blake.constsFr_eq]; exact runFr_code
  · rw [limbs_consts, Blake.constsFr_eq]; exact runFr_exact
  · decide +kernel

theorem squeezeFq_ne : squeezeS codeOps (conv frParams fqParams) (mimcWords fqParams) [⟨badFq, badFq_canonical⟩] challengeBits ≠
    squeezeS exactOps (conv frParams fqParams) (mimcWords fqParams) [⟨badFq, badFq_canonical⟩] challengeBits := by
  refine squeeze_ne (u := ⟨8085744761898299528, 15657121414594735247, 18207360504838964110, 2612955660355409002⟩)
    (v := ⟨5139372970577254091, 7556154626559722448, 5922112679484252486, 1243132779140814094⟩) ?_ ?_ ?_
  · rw [limbs_consts, Blake.constsFq_eq]; exact runFq_code
  · rw [limbs_consts, Blake.constsFq_eq]; exact runFq_exact
  · decide +kernel

/-! ### The hash of the first step -/

/-- The output of the example function `z ↦ z³ + z + 5` on `badFr`. -/
def badFr1 : L4 := ⟨11998986486475600068, 13843135735754025348, 7286301674001271802, 2249400795805018716⟩

/-- What the first hash absorbs: the step number, input, output, two identities, `u` and the limbs of two inputs. -/
def firstState : List L4 :=
  [frParams.one, badFr, badFr1, FieldParams.zero, frParams.one, FieldParams.zero, FieldParams.zero, frParams.one, FieldParams.zero,
    FieldParams.zero] ++ List.replicate 8 FieldParams.zero

theorem runFirst_code : spongeL frParams.add frParams.mul frParams.square Blake.constsFr firstState FieldParams.zero =
    ⟨6706696027044748296, 7264539849131114152, 2235448374747578308, 891417188106447455⟩ := by decide +kernel
theorem runFirst_exact : spongeL frParams.add frParams.mul (fun x => frParams.mul x x) Blake.constsFr firstState FieldParams.zero =
    ⟨12141187718418512338, 6669781686295181695, 5773575724230511030, 1373870865736896593⟩ := by decide +kernel

/-- `badFr` as an element. -/
def z0W : Words frParams := ⟨badFr, badFr_canonical⟩
/-- The output on it. -/
def z1W : Words frParams := z0W * z0W * z0W + z0W + wOfU64 5

theorem z1W_limbs : z1W.limbs = badFr1 := by decide +kernel

/-- The dummy instance (`instance.rs:24-31`) with two inputs. -/
def dummy2 : RInst (Words fqParams) (Aff (Words frParams)) := ⟨Aff.identity, Aff.identity, 0, [0, 0]⟩

theorem dummy2_absorb : ((conv fqParams frParams).absorb dummy2).map (List.map Words.limbs) =
    some (firstState.drop 3) := by decide +kernel

theorem firstHash_ne : ∀ h h', hashS codeOps (conv fqParams frParams) (mimcWords frParams) dummy2 1 [z0W] [z1W] = some h →
    hashS exactOps (conv fqParams frParams) (mimcWords frParams) dummy2 1 [z0W] [z1W] = some h' → h ≠ h' := by
  intro h h' e e'
  obtain ⟨a, ha, hl⟩ := Option.map_eq_some_iff.mp dummy2_absorb
  unfold hashS at e e'
  rw [ha, Option.map_some, Option.some_inj] at e e'
  rw [← e, ← e']
  have hs : ((conv fqParams frParams).ofU64 1 :: ([z0W] ++ [z1W] ++ a)).map Words.limbs = firstState := by
    rw [List.map_cons, List.map_append, hl]
    have : ((conv fqParams frParams).ofU64 1).limbs = frParams.one := by decide +kernel
    rw [this, List.map_append, List.map_cons, List.map_nil, List.map_cons, List.map_nil, z1W_limbs]
    rfl
  refine squeeze_ne (u := ⟨6706696027044748296, 7264539849131114152, 2235448374747578308, 891417188106447455⟩)
    (v := ⟨12141187718418512338, 6669781686295181695, 5773575724230511030, 1373870865736896593⟩) ?_ ?_ ?_
  · rw [hs, limbs_consts, Blake.constsFr_eq]; exact runFirst_code
  · rw [hs, limbs_consts, Blake.constsFr_eq]; exact runFirst_exact
  · decide +kernel

end Kogarashi.Nova.Raw
