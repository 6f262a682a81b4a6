import Verif.Nova.Circuit
import Verif.Nova.BigNatProof

/-!
# The augmented circuit run by the honest prover
-/

set_option exponentiation.threshold 1600

namespace Kogarashi

open Spec Curve

theorem HasL.append {F : Type} [Field F] [DecidableEq F] {c : CS F} {a b : List (Row F)} {u v : List F} (h1 : HasL c a u)
    (h2 : HasL c b v) : HasL c (a ++ b) (u ++ v) := List.rel_append h1 h2

theorem HasL.cons {F : Type} [Field F] [DecidableEq F] {c : CS F} {a : Row F} {b : List (Row F)} {u : F} {v : List F}
    (h1 : Has c a u) (h2 : HasL c b v) : HasL c (a :: b) (u :: v) := List.Forall₂.cons h1 h2

theorem HasL.nil {F : Type} [Field F] [DecidableEq F] {c : CS F} : HasL c ([] : List (Row F)) [] := List.Forall₂.nil

namespace Nova

variable {p q : Nat} [Fact p.Prime] [Fact q.Prime]

theorem HasN.hasL {c : CS (ZMod p)} {rs : List (Row (ZMod p))} {ns : List Nat} (h : HasN c rs ns) :
    HasL c rs (ns.map (fun d : Nat => (d : ZMod p))) := by
  unfold HasL
  rw [List.forall₂_map_right_iff]
  exact h

/-! ## Transcript -/

theorem mimcCirc_hp : ∀ (consts : List (ZMod q)) {xl xr : Row (ZMod q)} {u v : ZMod q} {cs : CS (ZMod q)}, Wf cs →
    Has cs xl u → Has cs xr v → HP cs (mimcCirc consts xl xr) (fun o c => Has c o (mimc consts u v))
  | [], xl, xr, u, v, cs, wf, h1, _ => HP.pure wf h1
  | k :: consts, xl, xr, u, v, cs, wf, h1, h2 => by
    unfold mimcCirc mimc
    dsimp only
    have h0 : Has cs (Row.add xl (Circ.const k)) (u + k) := h1.add (Has.const wf k)
    refine HP.bind (HP.square wf h0) (fun a c1 e1 w1 ha => ?_)
    refine HP.bind (HP.square w1 ha) (fun b c2 e2 w2 hb => ?_)
    refine HP.bind (HP.mul w2 hb (ha.mono e2)) (fun m c3 e3 w3 hm => ?_)
    refine HP.bind (HP.mul w3 hm (((h0.mono e1).mono e2).mono e3)) (fun m' c4 e4 w4 hm' => ?_)
    have E : Extends cs c4 := ((e1.trans e2).trans e3).trans e4
    refine mimcCirc_hp consts w4 ((hm'.add (h2.mono E)).cast ?_) (h1.mono E)
    ring

theorem spongeCirc_hp (consts : List (ZMod q)) : ∀ {ss : List (Row (ZMod q))} {vs : List (ZMod q)} {acc : Row (ZMod q)}
    {a : ZMod q} {cs : CS (ZMod q)}, Wf cs → HasL cs ss vs → Has cs acc a →
    HP cs (spongeCirc consts ss acc) (fun o c => Has c o (vs.foldl (fun acc s => acc + s + mimc consts s acc) a))
  | [], [], acc, a, cs, wf, _, ha => HP.pure wf ha
  | s :: ss, v :: vs, acc, a, cs, wf, h, ha => by
    cases h with
    | cons h1 h2 =>
      unfold spongeCirc
      refine HP.bind (mimcCirc_hp consts wf h1 ha) (fun m c e w hm => ?_)
      have h3 : HasL c ss vs := HasL.mono (vs := vs) h2 e
      have := spongeCirc_hp consts (vs := vs) w h3 (((ha.mono e).add (h1.mono e)).add hm)
      exact this

theorem packLoop_hp : ∀ {bs : List Bin} {ds : List Nat} {mult val : Row (ZMod q)} {m v : ZMod q} {cs : CS (ZMod q)}, Wf cs →
    HasBits cs bs ds → Has cs mult m → Has cs val v →
    HP cs (packLoop bs mult val) (fun o c => Has c o (v + m * ((leValue 2 ds : Nat) : ZMod q)))
  | [], [], mult, val, m, v, cs, wf, _, _, hv => HP.pure wf (hv.cast (by simp [leValue]))
  | b :: bs, d :: ds, mult, val, m, v, cs, wf, h, hm, hv => by
    cases h with
    | cons h1 h2 =>
      unfold packLoop
      refine HP.bind (HP.conditionalSelect wf (hv.add hm) hv h1) (fun o c e w ho => ?_)
      refine (packLoop_hp w (HasBits.mono h2 e) ((hm.mono e).add (hm.mono e)) ho).mono (fun o' c' _ _ h => h.cast ?_)
      rw [leValue]; push_cast; ring

theorem squeezeCirc_hp {nb : Nat} (B : BitParams q nb) (consts : List (ZMod q)) {cs : CS (ZMod q)} (wf : Wf cs)
    {state : List (Row (ZMod q))} {vs : List (ZMod q)} (h : HasL cs state vs) {n : Nat} (hn0 : 0 < n) (hn : n ≤ 256) :
    HP cs (squeezeCirc nb consts state n) (fun o c => Has c o (((sponge consts vs).val % 2 ^ n : Nat) : ZMod q)) := by
  unfold squeezeCirc
  refine HP.bind (spongeCirc_hp consts wf h (Has.const wf 0)) (fun s c1 e1 w1 hs => ?_)
  refine HP.bind (HP.toBits w1 hs B.le B.lo B.hi hn0 hn) (fun bits c2 e2 w2 ⟨ds, k1, _, k3, _, k5⟩ => ?_)
  rw [List.take_of_length_le (by rw [List.length_reverse, k3])]
  refine (packLoop_hp w2 (HP.hasBits_reverse k1) (Has.const w2 1) (Has.const w2 0)).mono (fun o c _ _ h => h.cast ?_)
  rw [HP.leValue_reverse, k5, zero_add, one_mul]
  rfl

/-! ## Instances -/

/-- The coordinates the code reads off a commitment are those `descale` produces. -/
def CurveEnv {b : ZMod q} (E : Env q (curve b).Point) : Prop :=
  ∀ P, (⟨E.coordX P, E.coordY P, if E.isId P then 0 else 1⟩ : Proj (ZMod q)) = canon P

section
variable {b : ZMod q}

theorem hasPoint_canon {c : CS (ZMod q)} {o : PointRow (ZMod q)} {P : (curve b).Point} (h : HasPt c o (canon P)) :
    HasPoint c o P := ⟨_, h, canon_rep P⟩

theorem witness_hp {E : Env q (curve b).Point} (hE : CurveEnv E) {cs : CS (ZMod q)} (wf : Wf cs) (P : (curve b).Point) :
    HP cs (E.witness P) (fun o c => HasPt c o (canon P)) := by
  unfold Env.witness
  refine (HP.ptWit wf _ _ _).mono (fun o c _ _ h => ?_)
  rwa [hE P] at h

/-- The rows of a plain instance. -/
structure IsInst (c : CS (ZMod q)) (r : InstRow q) (i : Inst (ZMod p) (curve b).Point) (v0 v1 : ZMod p) : Prop where
  cw : HasPt c r.commitW (canon i.commitW)
  x : i.x = [v0, v1]
  x0 : Has c r.x0 (reread v0)
  x1 : Has c r.x1 (reread v1)

/-- The rows of a relaxed instance. -/
structure IsRInst (c : CS (ZMod q)) (r : RInstRow q) (i : RInst (ZMod p) (curve b).Point) (v0 v1 : ZMod p) : Prop where
  cw : HasPoint c r.commitW i.commitW
  ce : HasPoint c r.commitE i.commitE
  u : Has c r.u (reread i.u)
  x : i.x = [v0, v1]
  x0 : IsBN c r.x0 (limbsOf 64 4 v0.val) 64 wordMax
  x1 : IsBN c r.x1 (limbsOf 64 4 v1.val) 64 wordMax

theorem IsInst.mono {c c' : CS (ZMod q)} {r : InstRow q} {i : Inst (ZMod p) (curve b).Point} {v0 v1 : ZMod p}
    (h : IsInst c r i v0 v1) (e : Extends c c') : IsInst c' r i v0 v1 := ⟨h.cw.mono e, h.x, h.x0.mono e, h.x1.mono e⟩

theorem IsRInst.mono {c c' : CS (ZMod q)} {r : RInstRow q} {i : RInst (ZMod p) (curve b).Point} {v0 v1 : ZMod p}
    (h : IsRInst c r i v0 v1) (e : Extends c c') : IsRInst c' r i v0 v1 :=
  ⟨h.cw.mono e, h.ce.mono e, h.u.mono e, h.x, h.x0.mono e, h.x1.mono e⟩

theorem val_fits (hp : p ≤ 2 ^ 256) (v : ZMod p) : v.val < 2 ^ (4 * 64) := lt_of_lt_of_le v.val_lt hp

theorem instWitness_hp {E : Env q (curve b).Point} (hE : CurveEnv E) {cs : CS (ZMod q)} (wf : Wf cs)
    {i : Inst (ZMod p) (curve b).Point} {v0 v1 : ZMod p} (hx : i.x = [v0, v1]) :
    HP cs (instWitness E i) (fun o c => IsInst c o i v0 v1) := by
  unfold instWitness
  refine HP.bind (witness_hp hE wf _) (fun cw c1 e1 w1 hcw => ?_)
  refine HP.bind (HP.lift' (a := v0) w1 (by rw [hx]; rfl)) (fun u0 c2 e2 w2 hu0 => ?_)
  subst hu0
  refine HP.bind (HP.wit w2 _) (fun x0 c3 e3 w3 hx0 => ?_)
  refine HP.bind (HP.lift' (a := v1) w3 (by rw [hx]; rfl)) (fun u1 c4 e4 w4 hu1 => ?_)
  subst hu1
  refine HP.bind (HP.wit w4 _) (fun x1 c5 e5 w5 hx1 => HP.pure w5 ?_)
  exact ⟨hcw.mono (((e2.trans e3).trans e4).trans e5), hx, hx0.mono (e4.trans e5), hx1⟩

theorem rinstWitness_hp (hp : p ≤ 2 ^ 256) {E : Env q (curve b).Point} (hE : CurveEnv E) {cs : CS (ZMod q)} (wf : Wf cs)
    {i : RInst (ZMod p) (curve b).Point} {v0 v1 : ZMod p} (hx : i.x = [v0, v1]) :
    HP cs (rinstWitness E i) (fun o c => IsRInst c o i v0 v1) := by
  unfold rinstWitness
  refine HP.bind (witness_hp hE wf _) (fun cw c1 e1 w1 hcw => ?_)
  refine HP.bind (witness_hp hE w1 _) (fun ce c2 e2 w2 hce => ?_)
  refine HP.bind (HP.wit w2 _) (fun u c3 e3 w3 hu => ?_)
  refine HP.bind (HP.lift' (a := v0) w3 (by rw [hx]; rfl)) (fun u0 c4 e4 w4 hu0 => ?_)
  subst hu0
  refine HP.bind (bnWitness_hp w4 (by norm_num [limbWidth]) (val_fits hp u0)) (fun x0 c5 e5 w5 hx0 => ?_)
  refine HP.bind (HP.lift' (a := v1) w5 (by rw [hx]; rfl)) (fun u1 c6 e6 w6 hu1 => ?_)
  subst hu1
  refine HP.bind (bnWitness_hp w6 (by norm_num [limbWidth]) (val_fits hp u1)) (fun x1 c7 e7 w7 hx1 => HP.pure w7 ?_)
  have E3 : Extends c3 c7 := ((e4.trans e5).trans e6).trans e7
  exact ⟨hasPoint_canon (hcw.mono ((e2.trans e3).trans E3)), hasPoint_canon (hce.mono (e3.trans E3)), hu.mono E3, hx,
    hx0.mono (e6.trans e7), hx1⟩

theorem reread_nat (hp : p ≤ 2 ^ 256) {n : Nat} (h : n < p) : (reread (n : ZMod p) : ZMod q) = (n : ZMod q) := by
  rw [reread_eq hp, val_cast_lt h]

theorem absorbX_nat (hp : p ≤ 2 ^ 256) (h64 : 2 ^ 64 ≤ p) (x : ZMod p) : (absorbX x : Option (List (ZMod q))) =
    some ((limbsOf 64 4 x.val).map (fun d : Nat => (d : ZMod q))) := by
  rw [absorbX_eq hp, List.map_map]
  have h : ∀ d ∈ limbsOf 64 4 x.val, (reread ∘ fun d : Nat => (d : ZMod p)) d = ((d : Nat) : ZMod q) := fun d hd => by
    rw [Function.comp_apply]
    exact reread_nat hp (lt_of_lt_of_le (limbsOf_lt d hd) h64)
  rw [List.map_congr_left h]

/-- The elements the transcript absorbs for a relaxed instance with two public inputs. -/
theorem absorb_two (hp : p ≤ 2 ^ 256) (h64 : 2 ^ 64 ≤ p) {G : Type} (E : Env q G) {i : RInst (ZMod p) G} {v0 v1 : ZMod p}
    (hx : i.x = [v0, v1]) : i.absorb E = some (E.point i.commitW ++ E.point i.commitE ++ [reread i.u] ++
      ((limbsOf 64 4 v0.val).map (fun d : Nat => (d : ZMod q)) ++ (limbsOf 64 4 v1.val).map (fun d : Nat => (d : ZMod q)))) := by
  unfold RInst.absorb
  rw [hx]
  simp [absorbX_nat (q := q) hp h64]

theorem ptRows_has {E : Env q (curve b).Point} (hE : CurveEnv E) {c : CS (ZMod q)} {o : PointRow (ZMod q)}
    {P : (curve b).Point} (h : HasPt c o (canon P)) : HasL c (ptRows o) (E.point P) := by
  have h1 := hE P
  rw [← h1] at h
  exact HasL.cons h.x (HasL.cons h.y (HasL.cons h.z HasL.nil))

theorem rinstAbsorb_hp (hp : p ≤ 2 ^ 256) (h64 : 2 ^ 64 ≤ p) {E : Env q (curve b).Point} (hE : CurveEnv E)
    {cs : CS (ZMod q)} (wf : Wf cs) {r : RInstRow q} {i : RInst (ZMod p) (curve b).Point} {v0 v1 : ZMod p}
    (h : IsRInst cs r i v0 v1) : HP cs (rinstAbsorb r) (fun o c => ∃ a, i.absorb E = some a ∧ HasL c o a) := by
  unfold rinstAbsorb
  refine HP.bind (HP.ptDescale wf h.ce) (fun ce c1 e1 w1 hce => ?_)
  refine HP.bind (HP.ptDescale w1 (h.cw.mono e1)) (fun cw c2 e2 w2 hcw => HP.pure w2 ⟨_, absorb_two hp h64 E h.x, ?_⟩)
  have hh := (h.mono e1).mono e2
  rw [List.append_assoc _ r.x0.limbs]
  exact HasL.append (HasL.append (HasL.append (ptRows_has hE hcw) (ptRows_has hE (hce.mono e2)))
    (HasL.cons hh.u HasL.nil)) (HasL.append hh.x0.has.hasL hh.x1.has.hasL)

/-- The integer behind `RelaxedR1csInstance::hash`. -/
def hashNat {G : Type} (E : Env q G) (i : RInst (ZMod p) G) (n : Nat) (z0 zi : List (ZMod q)) : Nat :=
  (sponge E.consts ((n : ZMod q) :: (z0 ++ zi ++ (i.absorb E).getD []))).val % 2 ^ hashBits

/-- The integer behind the folding challenge. -/
def challengeNat {G : Type} (E : Env q G) (T : G) (i : RInst (ZMod p) G) : Nat :=
  (sponge E.consts (E.point T ++ (i.absorb E).getD [])).val % 2 ^ challengeBits

theorem hashNat_lt {G : Type} (E : Env q G) (i : RInst (ZMod p) G) (n : Nat) (z0 zi : List (ZMod q)) :
    hashNat E i n z0 zi < 2 ^ 252 := Nat.mod_lt _ (by norm_num)

theorem challengeNat_lt {G : Type} (E : Env q G) (T : G) (i : RInst (ZMod p) G) : challengeNat E T i < 2 ^ 128 :=
  Nat.mod_lt _ (by norm_num)

theorem hash_eq {G : Type} (hp : p ≤ 2 ^ 256) (E : Env q G) (i : RInst (ZMod p) G) (n : Nat)
    (z0 zi : List (ZMod q)) : i.hash E n z0 zi = some ((hashNat E i n z0 zi : Nat) : ZMod p) := by
  obtain ⟨a, ha⟩ := absorb_isSome hp E i
  unfold RInst.hash hashNat
  rw [ha]
  simp only [Option.bind_eq_bind, Option.bind_some, Option.getD_some]
  rw [squeeze_eq _ _ (by norm_num [hashBits])]

theorem challenge_eq {G : Type} (hp : p ≤ 2 ^ 256) (E : Env q G) (T : G) (i : RInst (ZMod p) G) :
    challenge E T i = some ((challengeNat E T i : Nat) : ZMod p) := by
  obtain ⟨a, ha⟩ := absorb_isSome hp E i
  unfold challenge challengeNat
  rw [ha]
  simp only [Option.bind_eq_bind, Option.bind_some, Option.getD_some]
  rw [squeeze_eq _ _ (by norm_num [challengeBits])]

theorem rinstHash_hp {nb : Nat} (B : BitParams q nb) (hp : p ≤ 2 ^ 256) (h64 : 2 ^ 64 ≤ p) {E : Env q (curve b).Point}
    (hE : CurveEnv E) {cs : CS (ZMod q)} (wf : Wf cs) {r : RInstRow q} {i : RInst (ZMod p) (curve b).Point} {v0 v1 : ZMod p}
    (h : IsRInst cs r i v0 v1) {ir : Row (ZMod q)} {n : Nat} (hi : Has cs ir (n : ZMod q)) {z0r zir : List (Row (ZMod q))}
    {z0 zi : List (ZMod q)} (hz0 : HasL cs z0r z0) (hzi : HasL cs zir zi) :
    HP cs (rinstHash nb E.consts r ir z0r zir) (fun o c => Has c o ((hashNat E i n z0 zi : Nat) : ZMod q)) := by
  unfold rinstHash hashNat
  refine HP.bind (rinstAbsorb_hp hp h64 hE wf h) (fun a c1 e1 w1 ⟨av, hav, ha⟩ => ?_)
  rw [hav]
  exact squeezeCirc_hp B E.consts w1 (HasL.cons (hi.mono e1) (HasL.append (HasL.append (hz0.mono e1) (hzi.mono e1)) ha))
    (by norm_num [hashBits]) (by norm_num [hashBits])

theorem challengeCirc_hp {nb : Nat} (B : BitParams q nb) (hp : p ≤ 2 ^ 256) (h64 : 2 ^ 64 ≤ p) {E : Env q (curve b).Point}
    (hE : CurveEnv E) {cs : CS (ZMod q)} (wf : Wf cs) {r : RInstRow q} {i : RInst (ZMod p) (curve b).Point} {v0 v1 : ZMod p}
    (h : IsRInst cs r i v0 v1) {tr : PointRow (ZMod q)} {T : (curve b).Point} (hT : HasPt cs tr (canon T)) :
    HP cs (challengeCirc nb E.consts r tr) (fun o c => Has c o ((challengeNat E T i : Nat) : ZMod q)) := by
  unfold challengeCirc challengeNat
  refine HP.bind (rinstAbsorb_hp hp h64 hE wf h) (fun a c1 e1 w1 ⟨av, hav, ha⟩ => ?_)
  rw [hav]
  exact squeezeCirc_hp B E.consts w1 (HasL.append (ptRows_has hE (hT.mono e1)) ha)
    (by norm_num [challengeBits]) (by norm_num [challengeBits])

/-! ## The folding verifier -/

theorem foldX_hp {fp : CarryBits} (B : BitParams q 254) (hp : p ≤ 2 ^ 254) {cs : CS (ZMod q)} (wf : Wf cs) {rBn mBn range : BigNat (ZMod q)}
    {rn : Nat} (hr : IsBN cs rBn (limbsOf 64 4 rn) 64 wordMax) (hrn : rn < 2 ^ 256)
    (hm : IsBN cs mBn (limbsOf 64 4 p) 64 wordMax) {single : Row (ZMod q)} {v0 : ZMod p} (hs : Has cs single (reread v0))
    (hv0 : v0.val < q) {x0 : ZMod p} (hx : IsBN cs range (limbsOf 64 4 x0.val) 64 wordMax) :
    HP cs (foldX fp 254 rBn mBn single range)
      (fun o c => IsBN c o (limbsOf 64 4 (x0 + v0 * (rn : ZMod p)).val) 64 wordMax) := by
  have h256 : (2 : Nat) ^ (4 * 64) = 2 ^ 256 := by norm_num
  have hp256 : p ≤ 2 ^ 256 := hp.trans (by norm_num)
  have hp' : p < 2 ^ 256 := lt_of_le_of_lt hp (by norm_num)
  have hval : ∀ n, n < 2 ^ 256 → leValue (2 ^ 64) (limbsOf 64 4 n) = n := fun n hn => by
    rw [limbsOf_value, Nat.mod_eq_of_lt (by rw [h256]; exact hn)]
  have hp0 : 0 < p := (Fact.out : p.Prime).pos
  have hv : (reread v0 : ZMod q).val = v0.val := by rw [reread_eq hp256, val_cast_lt hv0]
  unfold foldX
  refine HP.bind (HP.value wf hs) (fun v c1 e1 w1 hvv => ?_)
  subst hvv
  unfold fToNat
  rw [hv]
  refine HP.bind (bnWitness_hp w1 (by norm_num [limbWidth]) (val_fits hp256 v0)) (fun s c2 e2 w2 hs2 => ?_)
  have E2 := e1.trans e2
  refine HP.bind (bnMultMod_hp B w2 hs2 (hr.mono E2) (hm.mono E2) (length_limbsOf _ _ _) (length_limbsOf _ _ _)
    (length_limbsOf _ _ _) (by rw [hval p hp']; omega)) (fun rx c3 e3 w3 hrx => ?_)
  have hv256 : v0.val < 2 ^ 256 := lt_of_lt_of_le v0.val_lt hp256
  have e1' : leValue (2 ^ 64) (limbsOf limbWidth nLimbs v0.val) = v0.val := hval _ hv256
  rw [e1', hval rn hrn, hval p hp'] at hrx
  have hml : v0.val * rn % p < p := Nat.mod_lt _ hp0
  have hxl : x0.val < p := x0.val_lt
  obtain ⟨o, ho, hob⟩ := bnAdd_has ((hx.mono E2).mono e3) hrx
  refine HP.bind (HP.lift' w3 ho) (fun o' c4 e4 w4 ho' => ?_)
  subst ho'
  have hsum : leValue (2 ^ 64) (polyAddN (limbsOf 64 4 x0.val) (limbsOf 64 4 (v0.val * rn % p))) = x0.val + v0.val * rn % p := by
    rw [leValue_polyAddN, hval _ (by omega), hval _ (by omega)]
  refine (bnRedMod_hp B w4 (hob.mono e4) (((hm.mono E2).mono e3).mono e4) (by norm_num) (by norm_num)
    (by rw [length_polyAddN, length_limbsOf, length_limbsOf]; rfl) (length_limbsOf _ _ _) (by rw [hval p hp']; omega)
    (by rw [hsum]; omega)).mono (fun o c _ _ h => ?_)
  rw [hsum, hval p hp'] at h
  have : (x0 + v0 * (rn : ZMod p)).val = (x0.val + v0.val * rn % p) % p := by
    rw [ZMod.val_add, ZMod.val_mul, ZMod.val_natCast]
    simp [Nat.add_mod, Nat.mul_mod]
  rw [this]
  exact h

variable [Module (ZMod p) (curve b).Point]

theorem nifsVerify_hp {fp : CarryBits} (B : BitParams q 254) (hp : p ≤ 2 ^ 254) (h2 : (2 : ZMod q) ≠ 0) (hn : NoOrderTwo b)
    {cs : CS (ZMod q)} (wf : Wf cs) {r : Row (ZMod q)} {rn : Nat} (hr : Has cs r (rn : ZMod q)) (hrn : rn < 2 ^ 128)
    {range : RInstRow q} {i1 : RInst (ZMod p) (curve b).Point} {x0 x1 : ZMod p} (hR : IsRInst cs range i1 x0 x1)
    {single : InstRow q} {i2 : Inst (ZMod p) (curve b).Point} {v0 v1 : ZMod p} (hS : IsInst cs single i2 v0 v1)
    (hv0 : v0.val < q) (hv1 : v1.val < q) (hu : i1.u.val + rn < p) {tr : PointRow (ZMod q)} {T : (curve b).Point}
    (hT : HasPt cs tr (canon T)) :
    HP cs (nifsVerify fp 254 (b + b + b) p r range single tr) (fun o c => ∃ i', i1.fold i2 (rn : ZMod p) T = some i' ∧
      IsRInst c o i' (x0 + v0 * (rn : ZMod p)) (x1 + v1 * (rn : ZMod p))) := by
  have hp256 : p ≤ 2 ^ 256 := hp.trans (by norm_num)
  have hp' : p < 2 ^ (4 * 64) := lt_of_le_of_lt hp (by norm_num)
  have hrq : rn < q := lt_trans hrn (B.big (by norm_num))
  have hrv : ((rn : ZMod q)).val = rn := val_cast_lt hrq
  unfold nifsVerify
  refine HP.bind (HP.ptScalar h2 hn wf B.le B.lo B.hi (hasPoint_canon hS.cw) hr) (fun rw' c1 e1 w1 hrw => ?_)
  refine HP.bind (HP.ptAdd h2 hn w1 (hR.cw.mono e1) hrw) (fun w c2 e2 w2 hw => ?_)
  have E2 := e1.trans e2
  refine HP.bind (HP.ptScalar h2 hn w2 B.le B.lo B.hi ((hasPoint_canon hT).mono E2) (hr.mono E2)) (fun rt c3 e3 w3 hrt => ?_)
  have E3 := E2.trans e3
  refine HP.bind (HP.ptAdd h2 hn w3 (hR.ce.mono E3) hrt) (fun e c4 e4 w4 he => ?_)
  have E4 := E3.trans e4
  refine HP.bind (bnOfField_hp B w4 (hr.mono E4) (word_le B)) (fun rBn c5 e5 w5 hrBn => ?_)
  rw [hrv] at hrBn
  have E5 := E4.trans e5
  refine HP.bind (bnWitness_hp w5 (by norm_num [limbWidth]) hp') (fun mBn c6 e6 w6 hmBn => ?_)
  have E6 := E5.trans e6
  refine HP.bind (HP.value w6 (hR.u.mono E6)) (fun vu c7 e7 w7 hvu => ?_)
  have E7 := E6.trans e7
  refine HP.bind (HP.value w7 (hr.mono E7)) (fun vr c8 e8 w8 hvr => ?_)
  have E8 := E7.trans e8
  subst hvu hvr
  refine HP.bind (HP.wit w8 _) (fun u c9 e9 w9 hu9 => ?_)
  have E9 := E8.trans e9
  refine HP.bind (HP.enforceEqConstant w9 (((hu9.sub (hR.u.mono E9)).sub (hr.mono E9)).cast (by ring))) (fun _ c10 e10 w10 _ => ?_)
  have E10 := E9.trans e10
  have F10 : Extends c6 c10 := ((e7.trans e8).trans e9).trans e10
  refine HP.bind (foldX_hp B hp w10 ((hrBn.mono e6).mono F10) (lt_trans hrn (by norm_num)) (hmBn.mono F10)
    (hS.x0.mono E10) hv0 (hR.x0.mono E10)) (fun y0 c11 e11 w11 hy0 => ?_)
  refine HP.bind (foldX_hp B hp w11 (((hrBn.mono e6).mono F10).mono e11) (lt_trans hrn (by norm_num)) ((hmBn.mono F10).mono e11)
    ((hS.x1.mono E10).mono e11) hv1 ((hR.x1.mono E10).mono e11)) (fun y1 c12 e12 w12 hy1 => HP.pure w12 ?_)
  have hxl : i1.x.length = i2.x.length := by rw [hR.x, hS.x]; rfl
  refine ⟨_, RInst.fold_eq hxl, ?_, ?_, ?_, ?_, hy0.mono e12, hy1⟩
  · have hm := hw.mono ((((((((((e3.trans e4).trans e5).trans e6).trans e7).trans e8).trans e9).trans e10).trans e11).trans e12))
    rw [hrv] at hm
    dsimp only
    rw [Nat.cast_smul_eq_nsmul]
    exact hm
  · have hm := he.mono (((((((e5.trans e6).trans e7).trans e8).trans e9).trans e10).trans e11).trans e12)
    rw [hrv] at hm
    dsimp only
    rw [Nat.cast_smul_eq_nsmul]
    exact hm
  · refine (hu9.mono ((e10.trans e11).trans e12)).cast ?_
    dsimp only
    have hrp : rn < p := by omega
    rw [reread_eq hp256, reread_eq hp256, ZMod.val_add_of_lt (by rw [val_cast_lt hrp]; exact hu), val_cast_lt hrp]
    push_cast; rfl
  · dsimp only
    rw [hR.x, hS.x]
    simp [axpy, mul_comm]

theorem rinstOfInst_hp (B : BitParams q 254) (hp : p ≤ 2 ^ 254) {cs : CS (ZMod q)} (wf : Wf cs) {single : InstRow q}
    {i2 : Inst (ZMod p) (curve b).Point} {v0 v1 : ZMod p} (hS : IsInst cs single i2 v0 v1) (hv0 : v0.val < q) (hv1 : v1.val < q)
    (hp1 : 1 < p) :
    HP cs (rinstOfInst 254 single) (fun o c => IsRInst c o (RInst.ofInst i2) v0 v1) := by
  have hp256 : p ≤ 2 ^ 256 := hp.trans (by norm_num)
  have hv : ∀ v : ZMod p, v.val < q → (reread v : ZMod q).val = v.val := fun v h => by rw [reread_eq hp256, val_cast_lt h]
  unfold rinstOfInst
  refine HP.bind (bnOfField_hp B wf hS.x0 (word_le B)) (fun x0 c1 e1 w1 h0 => ?_)
  refine HP.bind (bnOfField_hp B w1 (hS.x1.mono e1) (word_le B)) (fun x1 c2 e2 w2 h1 => HP.pure w2 ?_)
  rw [hv v0 hv0] at h0
  rw [hv v1 hv1] at h1
  refine ⟨hasPoint_canon ((hS.cw.mono e1).mono e2), HP.ptIdentity_has w2, (Has.const w2 1).cast ?_, hS.x, h0.mono e2, h1⟩
  have := reread_nat (q := q) hp256 hp1
  simpa [RInst.ofInst] using this.symm

theorem rinstSelect_hp {cs : CS (ZMod q)} (wf : Wf cs) {ra rb : RInstRow q} {i j : RInst (ZMod p) (curve b).Point}
    {v0 v1 u0 u1 : ZMod p} (ha : IsRInst cs ra i v0 v1) (hb : IsRInst cs rb j u0 u1) {s : Bin} {t : ZMod q}
    (hs : HasW cs s t) (ht : t = 0 ∨ t = 1) :
    HP cs (rinstSelect ra rb s) (fun o c => IsRInst c o (if t = 1 then i else j) (if t = 1 then v0 else u0) (if t = 1 then v1 else u1)) := by
  obtain ⟨wa, wa1, wa2⟩ := ha.cw
  obtain ⟨wb, wb1, wb2⟩ := hb.cw
  obtain ⟨ea, ea1, ea2⟩ := ha.ce
  obtain ⟨eb, eb1, eb2⟩ := hb.ce
  unfold rinstSelect
  refine HP.bind (HP.ptSelect wf wa1 wb1 hs ht) (fun cw c1 e1 w1 h1 => ?_)
  refine HP.bind (HP.ptSelect w1 (ea1.mono e1) (eb1.mono e1) (hs.mono e1) ht) (fun ce c2 e2 w2 h2 => ?_)
  have E2 := e1.trans e2
  refine HP.bind (HP.conditionalSelect w2 (ha.u.mono E2) (hb.u.mono E2) (hs.mono E2)) (fun u c3 e3 w3 h3 => ?_)
  have E3 := E2.trans e3
  refine HP.bind (bnSelect_hp w3 (ha.x0.mono E3) (hb.x0.mono E3) (by rw [length_limbsOf, length_limbsOf]) ht (hs.mono E3))
    (fun x0 c4 e4 w4 h4 => ?_)
  have E4 := E3.trans e4
  refine HP.bind (bnSelect_hp w4 (ha.x1.mono E4) (hb.x1.mono E4) (by rw [length_limbsOf, length_limbsOf]) ht (hs.mono E4))
    (fun x1 c5 e5 w5 h5 => HP.pure w5 ?_)
  have F1 := ((e2.trans e3).trans e4).trans e5
  have F2 := (e3.trans e4).trans e5
  have F3 := e4.trans e5
  rcases ht with rfl | rfl
  · simp only [zero_ne_one, if_false] at h1 h2 h4 h5 ⊢
    exact ⟨⟨_, h1.mono F1, wb2⟩, ⟨_, h2.mono F2, eb2⟩, (h3.mono F3).cast (by ring), hb.x, h4.mono e5, h5⟩
  · simp only [if_true] at h1 h2 h4 h5 ⊢
    exact ⟨⟨_, h1.mono F1, wa2⟩, ⟨_, h2.mono F2, ea2⟩, (h3.mono F3).cast (by ring), ha.x, h4.mono e5, h5⟩

/-! ## The augmented circuit -/

/-- The function circuit computes the function: on rows holding `vals` the honest run yields rows holding
`invoke vals` with all constraints satisfied. -/
def FnCircuit.Honest (FC : FnCircuit (ZMod q)) : Prop :=
  ∀ (cs : CS (ZMod q)) (rows : List (Row (ZMod q))) (vals : List (ZMod q)), Wf cs → vals.length = 1 → HasL cs rows vals →
    HP cs (FC.invokeCs rows) (fun o c => HasL c o (FC.invoke vals))

/-- The next running instance the augmented circuit computes. -/
def nextInst {G : Type} [AddCommGroup G] [Module (ZMod p) G] (E : Env q G) (A : Augmented p q G) : Option (RInst (ZMod p) G) :=
  if A.i = 0 then some (if A.isPrimary then RInst.dummy 2 else RInst.ofInst (A.single.getD (Inst.dummy 2)))
  else (A.range.getD (RInst.dummy 2)).fold (A.single.getD (Inst.dummy 2))
    ((challengeNat E (A.commitT.getD 0) (A.range.getD (RInst.dummy 2)) : Nat) : ZMod p) (A.commitT.getD 0)

/-- The inputs on which the augmented circuit is honest. -/
structure Augmented.Good (E : Env q (curve b).Point) (A : Augmented p q (curve b).Point) (v0 v1 : ZMod p) : Prop where
  i : A.i < 2 ^ 64
  zi : (A.zi.getD A.z0).length = 1
  single : (A.single.getD (Inst.dummy 2)).x = [v0, v1]
  lt0 : v0.val < 2 ^ 252
  lt1 : v1.val < 2 ^ 252
  range : (A.range.getD (RInst.dummy 2)).x.length = 2
  u : (A.range.getD (RInst.dummy 2)).u.val + 2 ^ 128 ≤ p
  link : A.i = 0 ∨ v0.val = hashNat E (A.range.getD (RInst.dummy 2)) A.i A.z0 (A.zi.getD A.z0)

theorem body_hp (B : BitParams q 254) (Bp : BitParams p 254) (h2 : (2 : ZMod q) ≠ 0) (hn : NoOrderTwo b)
    {D : Driver p q (curve b).Point} (hnb : D.nb = 254) (hb3 : D.b3 = b + b + b) (hE : CurveEnv D.env)
    {FC : FnCircuit (ZMod q)} (hF : FC.Honest) {A : Augmented p q (curve b).Point} {v0 v1 : ZMod p} (g : A.Good D.env v0 v1)
    {cs : CS (ZMod q)} (wf : Wf cs) :
    HP cs (A.body D FC) (fun o c => ∃ next, nextInst D.env A = some next ∧ Has c o.1 (reread v1) ∧
      Has c o.2.1 ((hashNat D.env next (A.i + 1) A.z0 (FC.invoke (A.zi.getD A.z0)) : Nat) : ZMod q) ∧
      HasL c o.2.2 (FC.invoke (A.zi.getD A.z0))) := by
  have hp := Bp.hi
  have hp256 : p ≤ 2 ^ 256 := Bp.lt256
  have h64 : 2 ^ 64 ≤ p := word_le Bp
  have hv0 : v0.val < q := lt_trans g.lt0 (B.big (by norm_num))
  have hv1 : v1.val < q := lt_trans g.lt1 (B.big (by norm_num))
  obtain ⟨x0, x1, hrx⟩ : ∃ x0 x1, (A.range.getD (RInst.dummy 2)).x = [x0, x1] := by
    have := g.range
    match h : (A.range.getD (RInst.dummy 2)).x, this with
    | [a, b], _ => exact ⟨a, b, rfl⟩
  have hiq : ((A.i : Nat) : ZMod q) = 0 ↔ A.i = 0 := by
    constructor
    · intro h
      have h1 : ((A.i : Nat) : ZMod q).val = A.i := val_cast_lt (lt_trans g.i (B.big (by norm_num)))
      rw [h, ZMod.val_zero] at h1
      exact h1.symm
    · intro h; rw [h]; simp
  unfold Augmented.body
  rw [hnb, hb3]
  refine HP.bind (HP.wit wf _) (fun i c1 e1 w1 hi => ?_)
  refine HP.bind (witList_hp _ w1) (fun z0 c2 e2 w2 hz0 => ?_)
  refine HP.bind (witList_hp _ w2) (fun zi c3 e3 w3 hzi => ?_)
  refine HP.bind (rinstWitness_hp hp256 hE w3 (v0 := 0) (v1 := 0) rfl) (fun dummy c4 e4 w4 hd => ?_)
  refine HP.bind (instWitness_hp hE w4 g.single) (fun single c5 e5 w5 hs => ?_)
  refine HP.bind (rinstWitness_hp hp256 hE w5 hrx) (fun range c6 e6 w6 hr => ?_)
  refine HP.bind (witness_hp hE w6 _) (fun ct c7 e7 w7 hct => ?_)
  have hi7 := hi.mono (((((e2.trans e3).trans e4).trans e5).trans e6).trans e7)
  have hz07 := hz0.mono ((((e3.trans e4).trans e5).trans e6).trans e7)
  have hzi7 := hzi.mono (((e4.trans e5).trans e6).trans e7)
  have hd7 := hd.mono ((e5.trans e6).trans e7)
  have hs7 := hs.mono (e6.trans e7)
  have hr7 := hr.mono e7
  clear hi hz0 hzi hd hs hr e1 e2 e3 e4 e5 e6 e7 w1 w2 w3 w4 w5 w6
  refine HP.bind (HP.isEq w7 hi7 (Has.const w7 0)) (fun bc c8 e8 w8 hbc => ?_)
  refine HP.bind (HP.isNeq w8 (hi7.mono e8) (Has.const w8 0)) (fun nbc c9 e9 w9 hnbc => ?_)
  have E9 := e8.trans e9
  have hbase : HP c9 (baseInst 254 A.isPrimary dummy single) (fun o c => ∃ y0 y1,
      IsRInst c o (if A.isPrimary then RInst.dummy 2 else RInst.ofInst (A.single.getD (Inst.dummy 2)) : RInst (ZMod p) (curve b).Point) y0 y1) := by
    unfold baseInst
    cases A.isPrimary with
    | true => exact HP.pure w9 ⟨_, _, hd7.mono E9⟩
    | false => exact (rinstOfInst_hp B hp w9 (hs7.mono E9) hv0 hv1 (by omega)).mono (fun o c _ _ h => ⟨_, _, h⟩)
  refine HP.bind hbase (fun nb c10 e10 w10 ⟨y0, y1, hnb⟩ => ?_)
  have E10 := E9.trans e10
  refine HP.bind (rinstHash_hp B hp256 h64 hE w10 (hr7.mono E10) (hi7.mono E10) (hz07.mono E10) (hzi7.mono E10))
    (fun ux c11 e11 w11 hux => ?_)
  have E11 := E10.trans e11
  refine HP.bind (HP.conditionalEnforceEqual w11 (hs7.x0.mono E11) hux (((hnbc.mono e10).mono e11)) ?_) (fun _ c12 e12 w12 _ => ?_)
  · rcases g.link with h | h
    · left; rw [if_pos (hiq.mpr h)]
    · right; rw [reread_eq hp256, h]
  have E12 := E11.trans e12
  refine HP.bind (challengeCirc_hp B hp256 h64 hE w12 (hr7.mono E12) (hct.mono E12)) (fun r c13 e13 w13 hr13 => ?_)
  have E13 := E12.trans e13
  have hlt := challengeNat_lt D.env (A.commitT.getD 0) (A.range.getD (RInst.dummy 2))
  refine HP.bind (nifsVerify_hp B hp h2 hn w13 hr13 hlt (hr7.mono E13) (hs7.mono E13) hv0 hv1
    (lt_of_lt_of_le (Nat.add_lt_add_left hlt _) g.u) (hct.mono E13)) (fun nnb c14 e14 w14 ⟨i', hi', hnnb⟩ => ?_)
  have E14 := E13.trans e14
  have hbcv : (if ((A.i : Nat) : ZMod q) = 0 then (1 : ZMod q) else 0) = 0 ∨ (if ((A.i : Nat) : ZMod q) = 0 then (1 : ZMod q) else 0) = 1 := by
    split_ifs <;> simp
  refine HP.bind (rinstSelect_hp w14 (hnb.mono ((((e11.trans e12).trans e13).trans e14))) hnnb
    (hbc.mono ((((((e9.trans e10).trans e11).trans e12).trans e13).trans e14))) hbcv) (fun next c15 e15 w15 hnext => ?_)
  have E15 := E14.trans e15
  have hone : ((if ((A.i : Nat) : ZMod q) = 0 then (1 : ZMod q) else 0) = 1) ↔ A.i = 0 := by
    rw [← hiq]
    split_ifs with h <;> simp [h]
  refine HP.bind (hF c15 zi _ w15 g.zi (hzi7.mono E15)) (fun zn c16 e16 w16 hzn => ?_)
  have E16 := E15.trans e16
  refine HP.bind (rinstHash_hp B hp256 h64 hE w16 (hnext.mono e16) (n := A.i + 1)
    (((hi7.mono E16).add (Has.const w16 1)).cast (by push_cast; rfl)) (hz07.mono E16) hzn) (fun nx c17 e17 w17 hnx => HP.pure w17 ?_)
  refine ⟨_, ?_, (hs7.x1.mono E16).mono e17, hnx, hzn.mono e17⟩
  unfold nextInst
  by_cases h : A.i = 0
  · rw [if_pos h, if_pos (hone.mpr h)]
  · rw [if_neg h, if_neg (fun h' => h (hone.mp h')), hi']

end

end Nova

end Kogarashi
