import Verif.Spec.NovaStruct
import Verif.Nova.Struct
import Verif.Nova.FoldingProof
import Verif.Nova.Example
import Verif.Field.ExtraProof

/-!
# Nova on limbs and point structs: relation to the model over residues and points
-/

namespace Kogarashi.Nova

open Kogarashi Spec Curve Kogarashi.Field Limbs Groth16 Props Tower

/-! ### Change of coordinates of point structs -/

section
variable {R S : Type} [_root_.Field R] [DecidableEq R] [_root_.Field S] [DecidableEq S] (f : R →+* S)

/-- Coordinatewise change of field. -/
def projMap (p : Proj R) : Proj S := ⟨f p.x, f p.y, f p.z⟩

theorem map_csq (a : R) : f (Curve.sq a) = Curve.sq (f a) := map_mul f a a
theorem map_dbl (a : R) : f (dbl a) = dbl (f a) := map_add f a a

theorem projMap_identity : projMap f Proj.identity = Proj.identity := by simp [projMap, Proj.identity]

theorem projMap_toExtended (p : Aff R) : projMap f p.toExtended = (mapAff f p).toExtended := by
  unfold Aff.toExtended Aff.isIdentity
  cases h : p.inf <;> simp [projMap, mapAff, h]

theorem projMap_neg (p : Proj R) : projMap f p.neg = (projMap f p).neg := by simp [projMap, Proj.neg]

theorem projMap_isIdentity (p : Proj R) : (projMap f p).isIdentity = p.isIdentity := by
  simp [projMap, Proj.isIdentity, map_eq_zero]

theorem projMap_double (b3 : R) (p : Proj R) : projMap f (doubleProj b3 p) = doubleProj (f b3) (projMap f p) := by
  simp only [projMap, doubleProj, map_add, map_sub, map_mul, map_csq, map_dbl]

theorem projMap_doubleAffine (b3 : R) (p : Aff R) : projMap f (doubleAffine b3 p) = doubleAffine (f b3) (mapAff f p) := by
  simp only [projMap, mapAff, doubleAffine, map_add, map_sub, map_mul, map_csq, map_dbl]

theorem projMap_add (b3 : R) (p q : Proj R) : projMap f (addProj b3 p q) = addProj (f b3) (projMap f p) (projMap f q) := by
  have inj : ∀ a b : R, f a = f b ↔ a = b := fun a b => f.injective.eq_iff
  unfold addProj
  rw [projMap_isIdentity, projMap_isIdentity]
  split
  · rfl
  split
  · rfl
  simp only [projMap, ← map_mul, inj]
  split
  · split
    · exact projMap_double f b3 p
    · exact projMap_identity f
  · simp only [map_add, map_sub, map_mul, map_csq]

theorem projMap_addMixed (b3 : R) (p : Aff R) (q : Proj R) :
    projMap f (addMixed b3 p q) = addMixed (f b3) (mapAff f p) (projMap f q) := by
  have inj : ∀ a b : R, f a = f b ↔ a = b := fun a b => f.injective.eq_iff
  unfold addMixed
  rw [projMap_isIdentity]
  have hi : (mapAff f p).isIdentity = p.isIdentity := rfl
  rw [hi]
  split
  · rfl
  split
  · exact projMap_toExtended f p
  simp only [projMap, ← map_mul, inj, show (mapAff f p).x = f p.x from rfl, show (mapAff f p).y = f p.y from rfl]
  split
  · split
    · exact projMap_doubleAffine f b3 p
    · simp [Aff.toExtended, Aff.identity, Aff.isIdentity]
  · simp only [map_add, map_sub, map_mul, map_csq, map_dbl]

theorem projMap_scalar (b3 : R) (p : Proj R) (nafs : List Naf) :
    projMap f (scalarPoint b3 p nafs) = scalarPoint (f b3) (projMap f p) nafs := by
  unfold scalarPoint
  rw [← projMap_identity f]
  generalize (Proj.identity : Proj R) = acc
  induction nafs generalizing acc with
  | nil => rfl
  | cons d l ih =>
    rw [List.foldl_cons, List.foldl_cons, ih]
    congr 1
    cases d <;> simp only [scalarStep, projMap_add, projMap_double, projMap_neg]

theorem mapAff_toAffine (p : Proj R) : mapAff f p.toAffine = (projMap f p).toAffine := by
  unfold Proj.toAffine
  have : (projMap f p).z = 0 ↔ p.z = 0 := map_eq_zero f
  by_cases h : p.z = 0
  · rw [if_pos h, if_pos (this.mpr h)]; simp [mapAff, Aff.identity]
  · rw [if_neg h, if_neg (fun h' => h (this.mp h'))]
    simp [mapAff, projMap, map_mul, map_inv₀]

theorem mapAff_eq (p q : Aff R) : (mapAff f p).eq (mapAff f q) = p.eq q := by
  have inj : ∀ a b : R, f a = f b ↔ a = b := fun a b => f.injective.eq_iff
  unfold Aff.eq Aff.isIdentity mapAff
  split
  · rfl
  · congr 1 <;> exact decide_eq_decide.mpr (inj _ _)

end

/-! ### Change of field of vectors and matrices -/

section
variable {R S : Type} [_root_.Field R] [DecidableEq R] [_root_.Field S] [DecidableEq S] (f : R →+* S)

theorem zipVec_map {g : R → R → R} {h : S → S → S} (e : ∀ a b, f (g a b) = h (f a) (f b)) (a b : List R) :
    zipVec h (a.map f) (b.map f) = (zipVec g a b).map (List.map f) := by
  unfold zipVec
  by_cases hl : a.length = b.length
  · rw [if_pos hl, if_pos (by simpa using hl), Option.map_some, List.zipWith_map, List.map_zipWith]
    simp only [e]
  · rw [if_neg hl, if_neg (by simpa using hl)]; rfl

theorem vecScale_map (a : List R) (r : R) : vecScale (a.map f) (f r) = (vecScale a r).map f := by
  simp [vecScale, Function.comp_def]

theorem readZ_map (l : Nat) (z : List R) (k : Wire) : Matrix.readZ l (z.map f) k = (Matrix.readZ l z k).map f := by
  cases k <;> simp [Matrix.readZ]

theorem rowProd_map (l : Nat) (z : List R) (r : Row R) :
    Matrix.rowProd l (z.map f) (rowMap f r) = (Matrix.rowProd l z r).map f := by
  unfold Matrix.rowProd
  rw [← map_zero f]
  generalize (0 : R) = acc
  induction r generalizing acc with
  | nil => rfl
  | cons e r ih =>
    rw [rowMap, List.map_cons, List.foldlM_cons, List.foldlM_cons]
    simp only [readZ_map]
    cases Matrix.readZ l z e.1 with
    | none => rfl
    | some v =>
      have := ih (acc + e.2 * v)
      rw [map_add, map_mul] at this
      simp only [readZ_map] at this
      exact this

theorem prodLoop_map (l : Nat) (z : List R) (rows : List (Row R)) : ∀ (i : Nat) (v : List R),
    Matrix.prodLoop l (z.map f) (rows.map (rowMap f)) i (v.map f) = (Matrix.prodLoop l z rows i v).map (List.map f) := by
  induction rows with
  | nil => intro i v; rfl
  | cons r rows ih =>
    intro i v
    rw [List.map_cons, Matrix.prodLoop, Matrix.prodLoop, rowProd_map]
    cases Matrix.rowProd l z r with
    | none => rfl
    | some s =>
      simp only [Option.map_some, Option.bind_eq_bind, Option.bind_some, List.length_map]
      split
      · rw [← List.map_set, ih]
      · rfl

theorem prod_map (rows : List (Row R)) (m l : Nat) (z : List R) :
    Matrix.prod (rows.map (rowMap f)) m l (z.map f) = (Matrix.prod rows m l z).map (List.map f) := by
  unfold Matrix.prod
  rw [← prodLoop_map, List.map_replicate, map_zero]

theorem all_map (a b : List R) : (((a.map f).zip (b.map f)).all fun p => p.1 == p.2) = ((a.zip b).all fun p => p.1 == p.2) := by
  have inj : ∀ a b : R, (f a == f b) = (a == b) := fun a b => by
    rw [Bool.eq_iff_iff]; simp [f.injective.eq_iff]
  rw [List.zip_map, List.all_map]
  congr 1
  funext p
  exact inj _ _

theorem isSatRelaxed_map {A B : Type} (s : Shape R) (i : RInst R A) (j : RInst S B) (w : RWit R) (hu : j.u = f i.u)
    (hx : j.x = i.x.map f) : isSatRelaxed (s.mapF f) j (w.mapF f) = isSatRelaxed s i w := by
  unfold isSatRelaxed
  have hz : j.u :: (j.x ++ (w.mapF f).w) = (i.u :: (i.x ++ w.w)).map f := by simp [hu, hx, RWit.mapF]
  have hl : j.x.length + 1 = i.x.length + 1 := by rw [hx, List.length_map]
  simp only [hz, hl, Shape.mapF, prod_map]
  generalize i.u :: (i.x ++ w.w) = z
  cases Matrix.prod s.a s.m (i.x.length + 1) z with
  | none => rfl
  | some az =>
  cases Matrix.prod s.b s.m (i.x.length + 1) z with
  | none => rfl
  | some bz =>
  cases Matrix.prod s.c s.m (i.x.length + 1) z with
  | none => rfl
  | some cz =>
  simp only [Option.map_some, Option.bind_eq_bind, Option.bind_some, RWit.mapF, hu, vecScale_map]
  rw [zipVec_map f (g := (· * ·)) (map_mul f), zipVec_map f (g := (· + ·)) (map_add f)]
  cases zipVec (· * ·) az bz with
  | none => rfl
  | some u =>
  cases zipVec (· + ·) (vecScale cz i.u) w.e with
  | none => rfl
  | some v =>
  simp only [Option.map_some, Option.bind_some, all_map]

theorem crossTerm_map {A B : Type} (s : Shape R) (i1 : RInst R A) (j1 : RInst S B) (w1 : RWit R) (i2 : Inst R A) (j2 : Inst S B)
    (w2 : List R) (hu : j1.u = f i1.u) (hx1 : j1.x = i1.x.map f) (hx2 : j2.x = i2.x.map f) :
    crossTerm (s.mapF f) j1 (w1.mapF f) j2 (w2.map f) = (crossTerm s i1 w1 i2 w2).map (List.map f) := by
  unfold crossTerm
  have hz1 : j1.u :: (j1.x ++ (w1.mapF f).w) = (i1.u :: (i1.x ++ w1.w)).map f := by simp [hu, hx1, RWit.mapF]
  have hz2 : (1 : S) :: (j2.x ++ w2.map f) = ((1 : R) :: (i2.x ++ w2)).map f := by simp [hx2]
  have hl1 : j1.x.length + 1 = i1.x.length + 1 := by rw [hx1, List.length_map]
  have hl2 : j2.x.length + 1 = i2.x.length + 1 := by rw [hx2, List.length_map]
  simp only [hz1, hz2, hl1, hl2, Shape.mapF, prod_map]
  generalize i1.u :: (i1.x ++ w1.w) = z1
  generalize (1 : R) :: (i2.x ++ w2) = z2
  cases Matrix.prod s.a s.m (i2.x.length + 1) z2 with
  | none => rfl
  | some az2 =>
  cases Matrix.prod s.b s.m (i1.x.length + 1) z1 with
  | none => rfl
  | some bz1 =>
  cases Matrix.prod s.a s.m (i1.x.length + 1) z1 with
  | none => rfl
  | some az1 =>
  cases Matrix.prod s.b s.m (i2.x.length + 1) z2 with
  | none => rfl
  | some bz2 =>
  cases Matrix.prod s.c s.m (i2.x.length + 1) z2 with
  | none => rfl
  | some cz2 =>
  cases Matrix.prod s.c s.m (i1.x.length + 1) z1 with
  | none => rfl
  | some cz1 =>
  simp only [Option.map_some, Option.bind_eq_bind, Option.bind_some, hu, vecScale_map]
  rw [zipVec_map f (g := (· * ·)) (map_mul f), zipVec_map f (g := (· * ·)) (map_mul f)]
  cases zipVec (· * ·) az2 bz1 with
  | none => rfl
  | some u1 =>
  cases zipVec (· * ·) az1 bz2 with
  | none => rfl
  | some u2 =>
  simp only [Option.map_some, Option.bind_some]
  rw [zipVec_map f (g := (· + ·)) (map_add f)]
  cases zipVec (· + ·) u1 u2 with
  | none => rfl
  | some u3 =>
  simp only [Option.map_some, Option.bind_some]
  rw [zipVec_map f (g := (· - ·)) (map_sub f)]
  cases zipVec (· - ·) u3 (vecScale cz2 i1.u) with
  | none => rfl
  | some u4 =>
  simp only [Option.map_some, Option.bind_some]
  rw [show (1 : S) = f 1 from (map_one f).symm, vecScale_map, zipVec_map f (g := (· - ·)) (map_sub f)]

theorem witFold_map (w1 : RWit R) (w2 : List R) (r : R) (t : List R) :
    (w1.mapF f).fold (w2.map f) (f r) (t.map f) = (w1.fold w2 r t).map (RWit.mapF f) := by
  unfold RWit.fold
  simp only [RWit.mapF, vecScale_map]
  rw [zipVec_map f (g := (· + ·)) (map_add f), zipVec_map f (g := (· + ·)) (map_add f)]
  cases zipVec (· + ·) w1.e (vecScale t r) with
  | none => rfl
  | some e =>
  cases zipVec (· + ·) w1.w (vecScale w2 r) with
  | none => rfl
  | some w => rfl

end

/-! ### Conversions and transcript -/

theorem bits_inj : ∀ {a b : List Nat}, a.length = b.length → (∀ x ∈ a, x = 0 ∨ x = 1) → (∀ x ∈ b, x = 0 ∨ x = 1) →
    beValue 2 a = beValue 2 b → a = b
  | [], [], _, _, _, _ => rfl
  | [], _ :: _, h, _, _, _ => by simp at h
  | _ :: _, [], h, _, _, _ => by simp at h
  | x :: a, y :: b, h, ha, hb, e => by
    have hl : a.length = b.length := by simpa using h
    have ha' : ∀ d ∈ a, d = 0 ∨ d = 1 := fun d hd => ha d (by simp [hd])
    have hb' : ∀ d ∈ b, d = 0 ∨ d = 1 := fun d hd => hb d (by simp [hd])
    have l1 := beValue_two_lt ha'
    have l2 := beValue_two_lt hb'
    rw [beValue_cons, beValue_cons, hl] at e
    rw [hl] at l1
    have hxy : x = y := by
      rcases ha x (by simp) with rfl | rfl <;> rcases hb y (by simp) with rfl | rfl
      · rfl
      · omega
      · omega
      · rfl
    subst hxy
    rw [bits_inj hl ha' hb' (by omega)]

section
variable {P Q : FieldParams} [hvP : ValidWords P] [hvQ : ValidWords Q]

theorem words_m_le : P.m ≤ 2 ^ 256 := by
  have := hvP.valid.p_bound
  omega

theorem hom_val (x : Words P) : (Words.hom x).val = value P x.limbs := rfl

theorem toBits_words (x : Words P) : P.toBits x.limbs = bits256 (Words.hom x).val := by
  obtain ⟨h1, h2, h3⟩ := C08_to_bits hvP.valid x.canonical
  have hlt : (Words.hom x).val < 2 ^ 256 := lt_of_lt_of_le (ZMod.val_lt _) words_m_le
  exact bits_inj (by rw [h1, bits256_length]) h2 (bits256_bit _) (by rw [h3, bits256_value hlt, hom_val])

theorem hom_readBits (bs : List Nat) : ∀ mult val : Words P,
    Words.hom (wReadBits bs mult val) = readBitsLE bs (Words.hom mult) (Words.hom val) := by
  induction bs with
  | nil => intro m v; rfl
  | cons b bs ih =>
    intro m v
    rw [wReadBits, readBitsLE, ih, map_add]
    split <;> simp only [map_add]

theorem hom_reread (x : Words P) : Words.hom (wReread x : Words Q) = reread (Words.hom x) := by
  rw [wReread, hom_readBits, toBits_words, map_one, map_zero, reread]

theorem hom_fToNat (x : Words P) : wFToNat x = fToNat (Words.hom x) := by
  rw [wFToNat, (toBytes_spec hvP.valid x.canonical).2.2, fToNat, hom_val]

theorem signedByte_eq (n : Int) (i : Nat) :
    signedByte n i = (n % 2 ^ (8 * signedBytesLen n)).toNat / 2 ^ (8 * i) % 2 ^ 8 := by
  have e256 : ∀ i : Nat, 256 ^ i = 2 ^ (8 * i) := fun i => by rw [pow_mul]; norm_num
  unfold signedByte
  generalize hL : signedBytesLen n = L
  have hN : (n % 2 ^ (8 * L)).toNat < 2 ^ (8 * L) := by
    have h0 : (0 : Int) < 2 ^ (8 * L) := by positivity
    have h1 := Int.emod_lt_of_pos n h0
    have h2 := Int.emod_nonneg n h0.ne'
    have : ((n % 2 ^ (8 * L)).toNat : Int) < ((2 ^ (8 * L) : Nat) : Int) := by
      rw [Int.toNat_of_nonneg h2]; push_cast; exact h1
    exact_mod_cast this
  split
  · rw [e256]; norm_num
  · rename_i hi
    rw [Nat.div_eq_of_lt (lt_of_lt_of_le hN (Nat.pow_le_pow_right (by norm_num) (by omega)))]
    rfl

theorem hom_natToF (n : Int) : (wNatToF n : Option (Words P)).map Words.hom = natToF n := by
  unfold wNatToF natToF
  by_cases h : 64 < signedBytesLen n
  · rw [if_pos h, if_pos h]; rfl
  · rw [if_neg h, if_neg h, Option.map_some]
    refine congrArg some ?_
    obtain ⟨h1, h2, -⟩ := C06_from_bytes_wide hvP.valid (bytes := signedByte n) (fun i _ => signedByte_lt n i)
    have hh : ∀ (l : L4) (hc : Canonical P l), Words.hom (⟨l, hc⟩ : Words P) = ((value P l : Nat) : ZMod P.m) := fun l hc => by
      rw [value_cast hvP.valid]; rfl
    rw [hh, h2]
    have e : (List.range 64).map (signedByte n) = limbsOf 8 64 (n % 2 ^ (8 * signedBytesLen n)).toNat := by
      unfold limbsOf
      exact List.map_congr_left fun i _ => signedByte_eq n i
    have h0 : (0 : Int) < 2 ^ (8 * signedBytesLen n) := by positivity
    have hnn := Int.emod_nonneg n h0.ne'
    have hN : (n % 2 ^ (8 * signedBytesLen n)).toNat < 2 ^ (64 * 8) := by
      have h1 := Int.emod_lt_of_pos n h0
      have : ((n % 2 ^ (8 * signedBytesLen n)).toNat : Int) < ((2 ^ (8 * signedBytesLen n) : Nat) : Int) := by
        rw [Int.toNat_of_nonneg hnn]; push_cast; exact h1
      exact lt_of_lt_of_le (by exact_mod_cast this) (Nat.pow_le_pow_right (by norm_num) (by omega))
    have hv : leValue 256 ((List.range 64).map (signedByte n)) = (n % 2 ^ (8 * signedBytesLen n)).toNat := by
      rw [e]
      have := limbsOf_value 8 64 (n % 2 ^ (8 * signedBytesLen n)).toNat
      rw [Nat.mod_eq_of_lt hN] at this
      exact this
    rw [hv, ZMod.natCast_mod, ← Int.cast_natCast, Int.toNat_of_nonneg hnn]

theorem hom_limbLoop (w : Nat) : ∀ (k : Nat) (n : Int),
    (wLimbLoop w k n : Option (List (Words P))).map (List.map Words.hom) = limbLoop w k n
  | 0, _ => rfl
  | k + 1, n => by
    rw [wLimbLoop, limbLoop, ← hom_natToF, ← hom_limbLoop w k]
    cases (wNatToF (n % 2 ^ w) : Option (Words P)) with
    | none => rfl
    | some r =>
      cases (wLimbLoop w k (n / 2 ^ w) : Option (List (Words P))) with
      | none => rfl
      | some rs => rfl

theorem hom_natToLimbs (n : Int) (w k : Nat) :
    (wNatToLimbs n w k : Option (List (Words P))).map (List.map Words.hom) = natToLimbs n w k := by
  unfold wNatToLimbs natToLimbs
  split
  · exact hom_limbLoop w k n
  · rfl

theorem map_comm {A B A' B' : Type} {g : A → B} {h : B → B'} {h' : A → A'} {g' : A' → B'} (e : ∀ l, h (g l) = g' (h' l)) (ls : List A) :
    (ls.map g).map h = (ls.map h').map g' := by
  rw [List.map_map, List.map_map]
  exact List.map_congr_left fun l _ => e l

theorem hom_absorbX (x : Words P) :
    (wAbsorbX x : Option (List (Words Q))).map (List.map Words.hom) = absorbX (Words.hom x) := by
  unfold wAbsorbX absorbX
  rw [hom_fToNat, ← hom_natToLimbs]
  cases (wNatToLimbs (fToNat (Words.hom x)) limbWidth nLimbs : Option (List (Words P))) with
  | none => rfl
  | some ls =>
    exact congrArg some (map_comm (g := wReread) (h' := Words.hom) (fun l => hom_reread l) ls)

theorem hom_ofU64 {n : Nat} (h : n < 2 ^ 64) : Words.hom (wOfU64 n : Words P) = (n : ZMod P.m) := by
  have key : ∀ (m : Nat) (hm : m < 2 ^ 64) (hc : Canonical P (P.fromU64 m)),
      Words.hom (⟨P.fromU64 m, hc⟩ : Words P) = (m : ZMod P.m) := fun m hm hc => (fromU64_spec hm).2
  exact (key (n % 2 ^ 64) (Nat.mod_lt _ (by norm_num)) _).trans (congrArg (Nat.cast : Nat → ZMod P.m) (Nat.mod_eq_of_lt h))

theorem hom_mimc {R S : Type} [_root_.Field R] [_root_.Field S] (f : R →+* S) : ∀ (cs : List R) (xl xr : R),
    f (mimc cs xl xr) = mimc (cs.map f) (f xl) (f xr)
  | [], _, _ => rfl
  | c :: cs, xl, xr => by
    rw [mimc, hom_mimc f cs, List.map_cons, mimc]
    simp only [map_add, map_mul]

theorem hom_sponge {R S : Type} [_root_.Field R] [_root_.Field S] (f : R →+* S) (cs st : List R) :
    f (sponge cs st) = sponge (cs.map f) (st.map f) := by
  unfold sponge
  rw [← map_zero f]
  generalize (0 : R) = acc
  induction st generalizing acc with
  | nil => rfl
  | cons s st ih =>
    rw [List.foldl_cons, List.map_cons, List.foldl_cons, ih]
    simp only [map_add, hom_mimc]

theorem hom_squeeze (cs st : List (Words Q)) (n : Nat) :
    Words.hom (wSqueeze cs st n : Words P) = squeeze (cs.map Words.hom) (st.map Words.hom) n := by
  rw [wSqueeze, hom_readBits, toBits_words, map_one, map_zero, squeeze, hom_sponge]

end

/-! ### Points -/

theorem affOf_rep {F : Type} [_root_.Field F] [DecidableEq F] {b : F} (Pt : (curve b).Point) : AffRep b (affOf Pt) Pt := by
  cases Pt with
  | zero => rfl
  | some x y h => exact ⟨rfl, rfl, rfl⟩

theorem toAffine_affOf {F : Type} [_root_.Field F] [DecidableEq F] {b : F} {p : Proj F} {Pt : (curve b).Point}
    (h : ProjRep b p Pt) : p.toAffine = affOf Pt := by
  have h' := toAffine_rep h
  cases Pt with
  | zero =>
    have hz : p.z = 0 := h
    unfold Proj.toAffine
    rw [if_pos hz]; rfl
  | some x y hn =>
    obtain ⟨h1, h2, h3⟩ := h'
    have : p.toAffine = ⟨p.toAffine.x, p.toAffine.y, p.toAffine.inf⟩ := rfl
    rw [this, h1, h2, h3]; rfl

section
variable {P Q : FieldParams} [hvP : ValidWords P] [hvQ : ValidWords Q] {b : Words Q}

theorem Normal.stands {a : Aff (Words Q)} {Pt : (curve (Words.hom b)).Point} (h : Normal a Pt) : Stands a Pt := by
  unfold Stands; rw [h]; exact affOf_rep Pt

theorem normal_toAffine {p : Proj (Words Q)} {Pt : (curve (Words.hom b)).Point}
    (h : ProjRep (Words.hom b) (projMap Words.hom p) Pt) : Normal p.toAffine Pt := by
  unfold Normal
  rw [mapAff_toAffine, toAffine_affOf h]

theorem words_two : (2 : ZMod Q.m) ≠ 0 := by
  have h1 := hvQ.valid.p_gt_two
  intro h
  have h2 : ((2 : Nat) : ZMod Q.m) = 0 := by exact_mod_cast h
  rw [ZMod.natCast_eq_zero_iff] at h2
  exact absurd (Nat.le_of_dvd (by norm_num) h2) (by omega)

variable [Module (ZMod P.m) (curve (Words.hom b)).Point]

theorem mulAffW_stands {a : Aff (Words Q)} {Pt : (curve (Words.hom b)).Point} (h : Stands a Pt) (k : Words P) :
    ∃ r, mulAffW b a k = some r ∧ ProjRep (Words.hom b) (projMap Words.hom r) ((Words.hom k : ZMod P.m) • Pt) := by
  obtain ⟨nafs, e1, e2⟩ := C22_scalar_mul_affine (b := Words.hom b) words_two hvP.valid k.canonical h
  refine ⟨scalarPoint (b + b + b) a.toExtended nafs, ?_, ?_⟩
  · unfold mulAffW mulProjW
    have e1' : P.toNafs (LimbScalar.limbs k) = some nafs := e1
    rw [e1']; rfl
  · rw [projMap_scalar, projMap_toExtended, map_add, map_add]
    have : (Words.hom k : ZMod P.m) • Pt = value P k.limbs • Pt := by
      rw [← Nat.cast_smul_eq_nsmul (ZMod P.m), value_cast hvP.valid]; rfl
    rw [this]
    exact e2

theorem commitLoop {g : List (Aff (Words Q))} {G : List (curve (Words.hom b)).Point} (hg : List.Forall₂ Stands g G) :
    ∀ (m : List (Words P)) {acc : Proj (Words Q)} {Acc : (curve (Words.hom b)).Point},
    ProjRep (Words.hom b) (projMap Words.hom acc) Acc →
    ∃ r, (m.zip g).foldlM (fun sum ve => (mulAffW b ve.2 ve.1).map (addProj (b + b + b) sum)) acc = some r ∧
      ProjRep (Words.hom b) (projMap Words.hom r)
        (((m.map (Words.hom (P := P))).zip G).foldl (fun sum ve => sum + ve.1 • ve.2) Acc) := by
  induction hg with
  | nil => intro m acc Acc h; exact ⟨acc, by simp, by simpa using h⟩
  | @cons a A g G ha hg ih =>
    intro m acc Acc h
    cases m with
    | nil => exact ⟨acc, rfl, h⟩
    | cons k m =>
      obtain ⟨r, e1, e2⟩ := mulAffW_stands ha k
      have h' : ProjRep (Words.hom b) (projMap Words.hom (addProj (b + b + b) acc r)) (Acc + (Words.hom k : ZMod P.m) • A) := by
        rw [projMap_add, map_add, map_add]
        exact addProj_rep words_two h e2
      obtain ⟨r', e3, e4⟩ := ih m h'
      refine ⟨r', ?_, ?_⟩
      · rw [List.zip_cons_cons, List.foldlM_cons]
        simp only [e1, Option.map_some]
        exact e3
      · rw [List.map_cons, List.zip_cons_cons, List.foldl_cons]
        exact e4

theorem wCommit_normal {g : List (Aff (Words Q))} {G : List (curve (Words.hom b)).Point} (hg : List.Forall₂ Stands g G)
    (m : List (Words P)) : ∃ c, wCommit b g m = some c ∧ Normal c (commit G (m.map (Words.hom (P := P)))) := by
  obtain ⟨r, e1, e2⟩ := commitLoop hg m (acc := Proj.identity) (Acc := 0) (by
    rw [projMap_identity]; rfl)
  exact ⟨r.toAffine, by rw [wCommit, e1]; rfl, normal_toAffine e2⟩

omit [Module (ZMod P.m) (curve (Words.hom b)).Point] in
theorem hom_point {a : Aff (Words Q)} {Pt : (curve (Words.hom b)).Point} (h : Normal a Pt) (cs : List (ZMod Q.m)) :
    (wPoint a).map Words.hom = (envOf (Words.hom b) cs).point Pt := by
  have hx : Words.hom a.x = (affOf Pt).x := congrArg Aff.x h
  have hy : Words.hom a.y = (affOf Pt).y := congrArg Aff.y h
  have hi : a.inf = (affOf Pt).inf := congrArg Aff.inf h
  unfold wPoint Env.point Aff.isIdentity
  rw [List.map_cons, List.map_cons, List.map_cons, List.map_nil, hx, hy, hi]
  cases Pt with
  | zero =>
    have : decide ((WeierstrassCurve.Affine.Point.zero : (curve (Words.hom b)).Point) = 0) = true := decide_eq_true rfl
    simp [affOf, envOf, canon, Aff.identity, this]
  | some x y hn =>
    have : decide (WeierstrassCurve.Affine.Point.some x y hn = 0) = false :=
      decide_eq_false (WeierstrassCurve.Affine.Point.some_ne_zero _)
    simp [affOf, envOf, canon, this]

theorem mapM_hom {A B A' B' : Type} (f : A → Option B) (g : A' → Option B') (α : A → A') (β : B → B')
    (h : ∀ a, (f a).map β = g (α a)) : ∀ l : List A, (l.mapM f).map (List.map β) = (l.map α).mapM g
  | [] => rfl
  | a :: l => by
    rw [List.map_cons, List.mapM_cons, List.mapM_cons, ← h a, ← mapM_hom f g α β h l]
    cases f a with
    | none => rfl
    | some b =>
      cases l.mapM f with
      | none => rfl
      | some bs => rfl

omit [Module (ZMod P.m) (curve (Words.hom b)).Point] in
theorem hom_absorb {i : RInst (Words P) (Aff (Words Q))} {I : RInst (ZMod P.m) (curve (Words.hom b)).Point} (h : RInstHolds i I)
    (cs : List (ZMod Q.m)) : (wAbsorb i).map (List.map Words.hom) = I.absorb (envOf (Words.hom b) cs) := by
  unfold wAbsorb RInst.absorb
  rw [h.x, ← mapM_hom _ _ _ _ hom_absorbX]
  cases i.x.mapM (wAbsorbX (Q := Q)) with
  | none => rfl
  | some xs =>
    simp only [Option.bind_eq_bind, Option.bind_some, Option.map_some, List.map_append, List.map_cons, List.map_nil]
    rw [hom_point h.commitW cs, hom_point h.commitE cs, hom_reread, h.u, List.map_flatten]

omit [Module (ZMod P.m) (curve (Words.hom b)).Point] in
theorem hom_challenge {T : Aff (Words Q)} {T' : (curve (Words.hom b)).Point} (hT : Normal T T')
    {i : RInst (Words P) (Aff (Words Q))} {I : RInst (ZMod P.m) (curve (Words.hom b)).Point} (h : RInstHolds i I)
    (cs : List (Words Q)) :
    (wChallenge cs T i).map Words.hom = challenge (envOf (Words.hom b) (cs.map Words.hom)) T' I := by
  unfold wChallenge challenge
  rw [← hom_absorb h (cs.map Words.hom)]
  cases wAbsorb i with
  | none => rfl
  | some a =>
    simp only [Option.bind_eq_bind, Option.bind_some, Option.map_some]
    rw [hom_squeeze, List.map_append, hom_point hT (cs.map Words.hom)]
    rfl

omit [Module (ZMod P.m) (curve (Words.hom b)).Point] in
theorem hom_hash {i : RInst (Words P) (Aff (Words Q))} {I : RInst (ZMod P.m) (curve (Words.hom b)).Point} (h : RInstHolds i I)
    (cs : List (Words Q)) {n : Nat} (hn : n < 2 ^ 64) (z0 zi : List (Words Q)) :
    (wHash cs i n z0 zi).map Words.hom =
      I.hash (envOf (Words.hom b) (cs.map Words.hom)) n (z0.map Words.hom) (zi.map Words.hom) := by
  unfold wHash RInst.hash
  rw [← hom_absorb h (cs.map Words.hom)]
  cases wAbsorb i with
  | none => rfl
  | some a =>
    simp only [Option.bind_eq_bind, Option.bind_some, Option.map_some]
    rw [hom_squeeze, List.map_cons, hom_ofU64 hn, List.map_append, List.map_append]
    rfl

theorem wFold_holds {i1 : RInst (Words P) (Aff (Words Q))} {I1 : RInst (ZMod P.m) (curve (Words.hom b)).Point}
    (h1 : RInstHolds i1 I1) {i2 : Inst (Words P) (Aff (Words Q))} {I2 : Inst (ZMod P.m) (curve (Words.hom b)).Point}
    (h2 : InstHolds i2 I2) (r : Words P) {T : Aff (Words Q)} {T' : (curve (Words.hom b)).Point} (hT : Normal T T') :
    OptRel RInstHolds (wFold b i1 i2 r T) (I1.fold I2 (Words.hom r) T') := by
  obtain ⟨e, e1, e2⟩ := mulAffW_stands hT.stands r
  obtain ⟨w, w1, w2⟩ := mulAffW_stands h2.commitW.stands r
  unfold wFold RInst.fold
  rw [e1, w1, h1.x, h2.x, vecScale_map, zipVec_map Words.hom (g := (· + ·)) (map_add Words.hom)]
  simp only [Option.bind_eq_bind, Option.bind_some]
  cases zipVec (· + ·) i1.x (vecScale i2.x r) with
  | none => exact .none
  | some x =>
    refine .some ⟨normal_toAffine ?_, normal_toAffine ?_, ?_, rfl⟩
    · rw [affAddProj, projMap_addMixed, map_add, map_add]
      exact addMixed_rep words_two h1.commitW.stands w2
    · rw [affAddProj, projMap_addMixed, map_add, map_add]
      exact addMixed_rep words_two h1.commitE.stands e2
    · show I1.u + Words.hom r = Words.hom (i1.u + r)
      rw [map_add, h1.u]

theorem optRel_of_map {A B : Type} {f : A → B} {x : Option A} {y : Option B} (h : x.map f = y) : OptRel (fun a b => f a = b) x y := by
  subst h
  cases x with
  | none => exact .none
  | some a => exact .some rfl

theorem wVerify_holds {i1 : RInst (Words P) (Aff (Words Q))} {I1 : RInst (ZMod P.m) (curve (Words.hom b)).Point}
    (h1 : RInstHolds i1 I1) {i2 : Inst (Words P) (Aff (Words Q))} {I2 : Inst (ZMod P.m) (curve (Words.hom b)).Point}
    (h2 : InstHolds i2 I2) {T : Aff (Words Q)} {T' : (curve (Words.hom b)).Point} (hT : Normal T T') (cs : List (Words Q)) :
    OptRel RInstHolds (wVerify cs b T i1 i2) (verify (envOf (Words.hom b) (cs.map Words.hom)) T' I1 I2) := by
  unfold wVerify verify
  refine OptRel.bind (optRel_of_map (hom_challenge hT h1 cs)) ?_
  rintro r _ rfl
  exact wFold_holds h1 h2 r hT

theorem wProve_holds {i1 : RInst (Words P) (Aff (Words Q))} {I1 : RInst (ZMod P.m) (curve (Words.hom b)).Point}
    (h1 : RInstHolds i1 I1) {i2 : Inst (Words P) (Aff (Words Q))} {I2 : Inst (ZMod P.m) (curve (Words.hom b)).Point}
    (h2 : InstHolds i2 I2) {g : List (Aff (Words Q))} {G : List (curve (Words.hom b)).Point} (hg : List.Forall₂ Stands g G)
    (cs : List (Words Q)) (S : Shape (Words P)) (w1 : RWit (Words P)) (w2 : List (Words P)) :
    OptRel (fun o O => RInstHolds o.1 O.1 ∧ O.2.1 = o.2.1.mapF Words.hom ∧ Normal o.2.2 O.2.2) (wProve cs b S g i1 w1 i2 w2)
      (prove (envOf (Words.hom b) (cs.map Words.hom)) (S.mapF Words.hom) G I1 (w1.mapF Words.hom) I2 (w2.map Words.hom)) := by
  unfold wProve prove
  refine OptRel.bind (optRel_of_map (crossTerm_map Words.hom S i1 I1 w1 i2 I2 w2 h1.u h1.x h2.x).symm) ?_
  rintro t _ rfl
  obtain ⟨c, c1, c2⟩ := wCommit_normal hg t
  refine OptRel.bind_left c1 ?_
  refine OptRel.bind (optRel_of_map (hom_challenge c2 h1 cs)) ?_
  rintro r _ rfl
  refine OptRel.bind (wFold_holds h1 h2 r c2) ?_
  intro i I hi
  refine OptRel.bind (optRel_of_map (witFold_map Words.hom w1 w2 r t).symm) ?_
  rintro w _ rfl
  exact .some ⟨hi, rfl, c2⟩

theorem wIsSat_eq {i : Inst (Words P) (Aff (Words Q))} {I : Inst (ZMod P.m) (curve (Words.hom b)).Point} (h : InstHolds i I)
    {g : List (Aff (Words Q))} {G : List (curve (Words.hom b)).Point} (hg : List.Forall₂ Stands g G) (S : Shape (Words P))
    (w : List (Words P)) : wIsSat b S g i w = isSat (S.mapF Words.hom) G I (w.map Words.hom) := by
  obtain ⟨c, c1, c2⟩ := wCommit_normal hg w
  have hc : i.commitW.eq c = decide (I.commitW = commit G (w.map (Words.hom (P := P)))) := by
    rw [← mapAff_eq Words.hom, Bool.eq_iff_iff, decide_eq_true_iff]
    exact affEq_iff h.commitW.stands c2.stands
  unfold wIsSat isSat
  have hz : (1 : ZMod P.m) :: (I.x ++ w.map Words.hom) = ((1 : Words P) :: (i.x ++ w)).map Words.hom := by simp [h.x]
  have hl : I.x.length + 1 = i.x.length + 1 := by rw [h.x, List.length_map]
  simp only [hz, hl, Shape.mapF, prod_map, c1, hc]
  generalize (1 : Words P) :: (i.x ++ w) = z
  cases Matrix.prod S.a S.m (i.x.length + 1) z with
  | none => rfl
  | some az =>
  cases Matrix.prod S.b S.m (i.x.length + 1) z with
  | none => rfl
  | some bz =>
  cases Matrix.prod S.c S.m (i.x.length + 1) z with
  | none => rfl
  | some cz =>
  simp only [Option.map_some, Option.bind_eq_bind, Option.bind_some]
  rw [zipVec_map Words.hom (g := (· * ·)) (map_mul Words.hom)]
  cases zipVec (· * ·) az bz with
  | none => rfl
  | some u =>
  simp only [Option.map_some, Option.bind_some, all_map]
  rw [hc]

end

/-! ### The recursive proof -/

section
variable {P S : FieldParams} [hvP : ValidWords P] [hvS : ValidWords S]

theorem hom_inj : Function.Injective (Words.hom (P := P)) := RingHom.injective _

theorem hom_surj : Function.Surjective (Words.hom (P := P)) := Words.res_surj

theorem mapAff_inj : Function.Injective (mapAff (Words.hom (P := P))) := by
  intro a b h
  have h1 := hom_inj (congrArg Aff.x h)
  have h2 := hom_inj (congrArg Aff.y h)
  have h3 := congrArg Aff.inf h
  cases a; cases b
  simp only [mapAff] at h1 h2 h3
  subst h1 h2 h3
  rfl

theorem lift_point {B : ZMod P.m} (Pt : (curve B).Point) : ∃ a : Aff (Words P), Normal a Pt := by
  obtain ⟨x, hx⟩ := hom_surj (affOf Pt).x
  obtain ⟨y, hy⟩ := hom_surj (affOf Pt).y
  exact ⟨⟨x, y, (affOf Pt).inf⟩, by unfold Normal mapAff; rw [hx, hy]⟩

theorem lift_list (l : List (ZMod P.m)) : ∃ l' : List (Words P), l = l'.map Words.hom := by
  obtain ⟨l', h⟩ := List.map_surjective_iff.mpr hom_surj l
  exact ⟨l', h.symm⟩

theorem rowMap_surj : Function.Surjective (rowMap (Words.hom (P := P))) := by
  refine List.map_surjective_iff.mpr ?_
  rintro ⟨w, x⟩
  obtain ⟨y, hy⟩ := hom_surj x
  exact ⟨(w, y), congrArg (Prod.mk w) hy⟩

theorem lift_shape (s : Shape (ZMod P.m)) : ∃ s' : Shape (Words P), s = s'.mapF Words.hom := by
  obtain ⟨a, ha⟩ := List.map_surjective_iff.mpr rowMap_surj s.a
  obtain ⟨b, hb⟩ := List.map_surjective_iff.mpr rowMap_surj s.b
  obtain ⟨c, hc⟩ := List.map_surjective_iff.mpr rowMap_surj s.c
  exact ⟨⟨s.m, s.instanceLength, s.witnessLength, a, b, c⟩, by unfold Shape.mapF; rw [ha, hb, hc]⟩

theorem lift_wit (w : RWit (ZMod P.m)) : ∃ w' : RWit (Words P), w = w'.mapF Words.hom := by
  obtain ⟨a, ha⟩ := lift_list w.w
  obtain ⟨b, hb⟩ := lift_list w.e
  exact ⟨⟨a, b⟩, by unfold RWit.mapF; rw [← ha, ← hb]⟩

theorem lift_key {B : ZMod P.m} (l : List (curve B).Point) : ∃ g : List (Aff (Words P)), List.Forall₂ Stands g l := by
  induction l with
  | nil => exact ⟨[], .nil⟩
  | cons X l ih =>
    obtain ⟨g, hg⟩ := ih
    obtain ⟨a, ha⟩ := lift_point X
    refine ⟨a :: g, .cons ?_ hg⟩
    unfold Stands; rw [ha]; exact affOf_rep X

theorem lift_inst {B : ZMod S.m} (I : Inst (ZMod P.m) (curve B).Point) : ∃ i : Inst (Words P) (Aff (Words S)), InstHolds i I := by
  obtain ⟨a, ha⟩ := lift_point I.commitW
  obtain ⟨x, hx⟩ := lift_list I.x
  exact ⟨⟨a, x⟩, ha, hx⟩

theorem lift_rinst {B : ZMod S.m} (I : RInst (ZMod P.m) (curve B).Point) : ∃ i : RInst (Words P) (Aff (Words S)), RInstHolds i I := by
  obtain ⟨a, ha⟩ := lift_point I.commitW
  obtain ⟨e, he⟩ := lift_point I.commitE
  obtain ⟨u, hu⟩ := hom_surj I.u
  obtain ⟨x, hx⟩ := lift_list I.x
  exact ⟨⟨a, e, u, x⟩, ha, he, hu.symm, hx⟩

theorem lift_proof {B1 : ZMod S.m} {B2 : ZMod P.m} (pf : RecursiveProof P.m S.m (curve B1).Point (curve B2).Point) :
    ∃ w : WRecursiveProof P S, ProofHolds w pf := by
  obtain ⟨z01, h1⟩ := lift_list pf.z01
  obtain ⟨z02, h2⟩ := lift_list pf.z02
  obtain ⟨zi1, h3⟩ := lift_list pf.zi1
  obtain ⟨zi2, h4⟩ := lift_list pf.zi2
  obtain ⟨s, h5⟩ := lift_inst pf.single2
  obtain ⟨ws, h6⟩ := lift_list pf.wsingle2
  obtain ⟨r1, h7⟩ := lift_rinst pf.range1
  obtain ⟨w1, h8⟩ := lift_wit pf.wrange1
  obtain ⟨r2, h9⟩ := lift_rinst pf.range2
  obtain ⟨w2, h10⟩ := lift_wit pf.wrange2
  exact ⟨⟨pf.i, z01, z02, zi1, zi2, s, ws, r1, w1, r2, w2⟩, rfl, h1, h2, h3, h4, h5, h6, h7, h8, h9, h10⟩

theorem lift_params {B1 : ZMod S.m} {B2 : ZMod P.m} (pp : PublicParams P.m S.m (curve B1).Point (curve B2).Point) :
    ∃ s1 s2 ck2, ParamsHold (P := P) (S := S) s1 s2 ck2 pp := by
  obtain ⟨s1, h1⟩ := lift_shape pp.shape1
  obtain ⟨s2, h2⟩ := lift_shape pp.shape2
  obtain ⟨g, h3⟩ := lift_key pp.ck2
  exact ⟨s1, s2, g, h1, h2, h3⟩

theorem wRec_verify {b1 : Words S} {b2 : Words P} [Module (ZMod P.m) (curve (Words.hom b1)).Point]
    [Module (ZMod S.m) (curve (Words.hom b2)).Point] {k1 : List (Words P)} {k2 : List (Words S)}
    {C : Cycle P.m S.m (curve (Words.hom b1)).Point (curve (Words.hom b2)).Point}
    (e1 : C.D1.env = envOf (Words.hom b2) (k1.map Words.hom)) (e2 : C.D2.env = envOf (Words.hom b1) (k2.map Words.hom))
    {s1 : Shape (Words P)} {s2 : Shape (Words S)} {ck2 : List (Aff (Words P))}
    {pp : PublicParams P.m S.m (curve (Words.hom b1)).Point (curve (Words.hom b2)).Point} (hpp : ParamsHold s1 s2 ck2 pp)
    {w : WRecursiveProof P S} {pf : RecursiveProof P.m S.m (curve (Words.hom b1)).Point (curve (Words.hom b2)).Point}
    (h : ProofHolds w pf) (hi : w.i < 2 ^ 64) : w.verify k1 k2 b2 s1 s2 ck2 = pf.verify C pp := by
  unfold WRecursiveProof.verify RecursiveProof.verify
  rw [e1, e2, h.single2.x, h.range1.x, h.range2.x, List.length_map, List.length_map, List.length_map]
  by_cases hl : w.single2.x.length ≠ 2 ∨ w.range1.x.length ≠ 2 ∨ w.range2.x.length ≠ 2
  · rw [if_pos hl, if_pos hl]
  rw [if_neg hl, if_neg hl, ← h.i, h.z01, h.z02, h.zi1, h.zi2, ← hom_hash h.range2 k1 hi, ← hom_hash h.range1 k2 hi,
    hpp.shape1, hpp.shape2, h.wrange1, h.wrange2, h.wsingle2, List.getElem?_map, List.getElem?_map,
    isSatRelaxed_map Words.hom s1 w.range1 pf.range1 w.wrange1 h.range1.u h.range1.x,
    isSatRelaxed_map Words.hom s2 w.range2 pf.range2 w.wrange2 h.range2.u h.range2.x, ← wIsSat_eq h.single2 hpp.ck2]
  cases wHash k1 w.range2 w.i w.z01 w.zi1 with
  | none => rfl
  | some a =>
  cases wHash k2 w.range1 w.i w.z02 w.zi2 with
  | none => rfl
  | some c =>
  cases w.single2.x[0]? with
  | none => rfl
  | some x0 =>
  cases w.single2.x[1]? with
  | none => rfl
  | some x1 =>
  simp only [Option.bind_eq_bind, Option.bind_some, Option.map_some]
  have e : (a ≠ x0 ∨ c ≠ wReread x1) ↔ ((Words.hom a : ZMod S.m) ≠ Words.hom x0 ∨ (Words.hom c : ZMod P.m) ≠ reread (Words.hom x1)) := by
    rw [← hom_reread, hom_inj.ne_iff, hom_inj.ne_iff]
  by_cases hc : a ≠ x0 ∨ c ≠ wReread x1
  · rw [if_pos hc, if_pos (e.mp hc)]
  · rw [if_neg hc, if_neg fun h => hc (e.mpr h)]

end

end Kogarashi.Nova
