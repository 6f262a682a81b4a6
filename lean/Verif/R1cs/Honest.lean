import Verif.R1cs.PointProof
import Verif.Nova.BigNat

/-!
# Value-level reasoning about the honest prover's run

`Has c r v` says that row `r` may be used in system `c` and carries the value `v` in the assignment stored by the
builder.  `HP cs g Post` says that the program runs from `cs` without panicking, only extends the system, and that
the stored values satisfy every constraint it adds.
-/

namespace Kogarashi

open Spec

variable {F : Type} [Field F] [DecidableEq F] {α β : Type}

/-- The row is usable and carries the value. -/
structure Has (c : CS F) (r : Row F) (v : F) : Prop where
  ok : RowOk c r
  val : rowVal (stored c) r = v

/-- The wire is allocated and carries the value. -/
structure HasW (c : CS F) (w : Wire) (v : F) : Prop where
  ok : Allocated c w
  val : stored c w = v

/-- The point rows carry the coordinates. -/
structure HasPt (c : CS F) (P : PointRow F) (v : Curve.Proj F) : Prop where
  ok : PtOk c P
  val : ptVal (stored c) P = v

/-- Rows carrying the values of a list. -/
def HasL (c : CS F) (rs : List (Row F)) (vs : List F) : Prop := List.Forall₂ (Has c) rs vs

/-- Wires carrying bits. -/
def HasBits (c : CS F) (bs : List Bin) (ds : List Nat) : Prop := List.Forall₂ (fun b (d : Nat) => HasW c b (d : F)) bs ds

/-- The run of the honest prover. -/
def HP (cs : CS F) (g : Circ F α) (Post : α → CS F → Prop) : Prop := WP cs g Post (fun _ _ => True) True

theorem Has.mono {c c' : CS F} {r : Row F} {v : F} (h : Has c r v) (e : Extends c c') : Has c' r v :=
  ⟨h.ok.mono e, by rw [e.rowVal_eq h.ok, h.val]⟩
theorem HasW.mono {c c' : CS F} {w : Wire} {v : F} (h : HasW c w v) (e : Extends c c') : HasW c' w v :=
  ⟨e.alloc h.ok, by rw [e.stored_eq h.ok, h.val]⟩
theorem HasPt.mono {c c' : CS F} {P : PointRow F} {v : Curve.Proj F} (h : HasPt c P v) (e : Extends c c') :
    HasPt c' P v := by
  refine ⟨Circ.PtOk.mono h.ok e, ?_⟩
  rw [← h.val]
  unfold ptVal
  rw [e.rowVal_eq h.ok.x, e.rowVal_eq h.ok.y, e.rowVal_eq h.ok.z]
theorem HasL.mono {c c' : CS F} {rs : List (Row F)} {vs : List F} (h : HasL c rs vs) (e : Extends c c') :
    HasL c' rs vs := List.Forall₂.imp (fun _ _ h => h.mono e) h
theorem HasBits.mono {c c' : CS F} {bs : List Bin} {ds : List Nat} (h : HasBits c bs ds) (e : Extends c c') :
    HasBits c' bs ds := List.Forall₂.imp (fun _ _ h => h.mono e) h

theorem Has.const {c : CS F} (wf : Wf c) (v : F) : Has c (Circ.const v) v :=
  ⟨Circ.const_ok wf v, by rw [Circ.rowVal_const, wf.stored_one, one_mul]⟩
theorem Has.add {c : CS F} {r s : Row F} {v w : F} (h : Has c r v) (h' : Has c s w) : Has c (Row.add r s) (v + w) :=
  ⟨h.ok.add h'.ok, by rw [Row.rowVal_add _ h.ok.distinct h'.ok.distinct, h.val, h'.val]⟩
theorem Has.sub {c : CS F} {r s : Row F} {v w : F} (h : Has c r v) (h' : Has c s w) : Has c (Row.sub r s) (v - w) :=
  ⟨h.ok.sub h'.ok, by rw [Row.rowVal_sub _ h.ok.distinct h'.ok.distinct, h.val, h'.val]⟩
theorem Has.ofBin {c : CS F} {b : Bin} {v : F} (h : HasW c b v) : Has c (Circ.ofBin b) v :=
  ⟨Circ.ofBin_ok h.ok, by rw [Circ.rowVal_ofBin, h.val]⟩
theorem Has.cast {c : CS F} {r : Row F} {v w : F} (h : Has c r v) (e : v = w) : Has c r w := e ▸ h

theorem HasPt.x {c : CS F} {P : PointRow F} {v : Curve.Proj F} (h : HasPt c P v) : Has c P.x v.x :=
  ⟨h.ok.x, by rw [← h.val]; rfl⟩
theorem HasPt.y {c : CS F} {P : PointRow F} {v : Curve.Proj F} (h : HasPt c P v) : Has c P.y v.y :=
  ⟨h.ok.y, by rw [← h.val]; rfl⟩
theorem HasPt.z {c : CS F} {P : PointRow F} {v : Curve.Proj F} (h : HasPt c P v) : Has c P.z v.z :=
  ⟨h.ok.z, by rw [← h.val]; rfl⟩

theorem HasBits.alloc {c : CS F} {bs : List Bin} {ds : List Nat} (h : HasBits c bs ds) :
    ∀ b ∈ bs, Allocated c b := by
  induction h with
  | nil => simp
  | cons h1 _ ih =>
    intro b hb
    rcases List.mem_cons.mp hb with rfl | hb
    · exact h1.ok
    · exact ih b hb

namespace HP

variable {cs : CS F}

theorem bind {g : Circ F α} {k : α → Circ F β} {P : α → CS F → Prop} {Q : β → CS F → Prop} (h : HP cs g P)
    (hk : ∀ a c, Extends cs c → Wf c → P a c → HP c (k a) Q) : HP cs (g >>= k) Q :=
  WP.bind h id (fun a c e w hp _ => (hk a c e w hp).weaken (fun _ _ _ _ h _ => h) (fun _ _ _ h _ => h) id)

theorem mono {g : Circ F α} {P Q : α → CS F → Prop} (h : HP cs g P) (hk : ∀ a c, Extends cs c → Wf c → P a c → Q a c) :
    HP cs g Q := WP.weaken h (fun a c e w hp _ => hk a c e w hp) (fun _ _ _ h => h) id

theorem pure (wf : Wf cs) {a : α} {P : α → CS F → Prop} (h : P a cs) : HP cs (Pure.pure a : Circ F α) P :=
  WP.pure wf h (fun _ _ => trivial)

theorem of_wp {g : Circ F α} {P : α → CS F → Prop} {S : α → Assignment F → Prop} {H : Prop} (h : WP cs g P S H) (hh : H) :
    HP cs g (fun a c => P a c ∧ S a (stored c)) :=
  WP.weaken h (fun _ _ _ _ hp hs => ⟨hp, hs trivial⟩) (fun _ _ _ _ => trivial) (fun _ => hh)

theorem lift (wf : Wf cs) {o : Option α} {a : α} (h : o = some a) {P : α → CS F → Prop} (hp : P a cs) :
    HP cs (Circ.lift o) P := by
  subst h
  exact ⟨a, cs, rfl, hp, Run.refl wf⟩

theorem lift' (wf : Wf cs) {o : Option α} {a : α} (h : o = some a) : HP cs (Circ.lift o) (fun x _ => x = a) :=
  lift wf h rfl

/-- What the run gives about satisfaction. -/
theorem satisfied {g : Circ F α} {P : α → CS F → Prop} (wf : Wf cs) (h : HP cs g P) :
    ∃ a c, g cs = some (a, c) ∧ P a c ∧ Extends cs c ∧ Wf c ∧
      (Satisfies (stored cs) cs → Satisfies (stored c) c) := by
  obtain ⟨a, c, e, hp, r⟩ := h
  refine ⟨a, c, e, hp, r.ext, r.wf, fun hs => ?_⟩
  rw [satisfies_iff r.ext]
  refine ⟨⟨r.wf.stored_one, fun k hk => ?_⟩, r.honest trivial⟩
  exact (holds_congr (fun w hw => (r.ext.stored_eq hw).symm) (wf.rows k hk)).mp (hs.2 k hk)

theorem mul (wf : Wf cs) {x y : Row F} {a b : F} (hx : Has cs x a) (hy : Has cs y b) :
    HP cs (Circ.mul x y) (fun o c => Has c o (a * b)) := by
  obtain ⟨o, c, e, hp, r⟩ := WP.mul wf hx.ok hy.ok
  refine ⟨o, c, e, ⟨hp, ?_⟩, r.weaken (fun _ _ _ => trivial) id⟩
  rw [r.at_stored trivial, (hx.mono r.ext).val, (hy.mono r.ext).val]

theorem square (wf : Wf cs) {x : Row F} {a : F} (hx : Has cs x a) :
    HP cs (Circ.square x) (fun o c => Has c o (a * a)) := mul wf hx hx

theorem wit (wf : Wf cs) (v : F) : HP cs (Circ.wit v) (fun o c => Has c o v) :=
  (of_wp (WP.wit wf v) trivial).mono (fun _ _ _ _ h => ⟨h.1.1, h.1.2⟩)

theorem value (wf : Wf cs) {r : Row F} {v : F} (h : Has cs r v) : HP cs (Circ.value r) (fun u _ => u = v) :=
  ⟨v, cs, by rw [Circ.value_eq h.ok, h.val], rfl, Run.refl wf⟩

theorem enforceEq (wf : Wf cs) {x y : Row F} {v : F} (hx : Has cs x v) (hy : Has cs y v) :
    HP cs (Circ.enforceEq x y) (fun _ _ => True) :=
  (of_wp (WP.enforceEq wf hx.ok hy.ok) (by rw [hx.val, hy.val])).mono (fun _ _ _ _ _ => trivial)

theorem enforceEqConstant (wf : Wf cs) {x : Row F} {v : F} (hx : Has cs x v) :
    HP cs (Circ.enforceEqConstant x v) (fun _ _ => True) := by
  obtain ⟨c, e, r⟩ := Circ.enforceEqConstant_run wf hx.ok v
  exact ⟨(), c, e, trivial, r.weaken (fun _ _ _ => trivial) (fun _ => hx.val)⟩

theorem conditionalSelect (wf : Wf cs) {a b : Row F} {s : Bin} {u v t : F} (ha : Has cs a u) (hb : Has cs b v)
    (hs : HasW cs s t) : HP cs (Circ.conditionalSelect a b s) (fun o c => Has c o (u * t + v * (1 - t))) := by
  obtain ⟨o, c, e, hp, r⟩ := WP.conditionalSelect wf ha.ok hb.ok hs.ok
  refine ⟨o, c, e, ⟨hp, ?_⟩, r.weaken (fun _ _ _ => trivial) id⟩
  rw [r.at_stored trivial, (ha.mono r.ext).val, (hb.mono r.ext).val, (hs.mono r.ext).val]

theorem conditionalEnforceEqual (wf : Wf cs) {x y : Row F} {s : Bin} {u v t : F} (hx : Has cs x u) (hy : Has cs y v)
    (hs : HasW cs s t) (h : t = 0 ∨ u = v) : HP cs (Circ.conditionalEnforceEqual x y s) (fun _ _ => True) := by
  obtain ⟨c, e, r⟩ := Circ.conditionalEnforceEqual_run wf hx.ok hy.ok hs.ok
  exact ⟨(), c, e, trivial, r.weaken (fun _ _ _ => trivial) (fun _ => by rw [hs.val, hx.val, hy.val]; exact h)⟩

theorem isNeq (wf : Wf cs) {x y : Row F} {u v : F} (hx : Has cs x u) (hy : Has cs y v) :
    HP cs (Circ.isNeq x y) (fun o c => HasW c o (if u = v then 0 else 1)) := by
  obtain ⟨o, c, e, h1, h2, r⟩ := Circ.isNeq_run wf hx.ok hy.ok
  exact ⟨o, c, e, ⟨h1, by rw [h2, hx.val, hy.val]⟩, r.weaken (fun _ _ _ => trivial) id⟩

theorem isEq (wf : Wf cs) {x y : Row F} {u v : F} (hx : Has cs x u) (hy : Has cs y v) :
    HP cs (Circ.isEq x y) (fun o c => HasW c o (if u = v then 1 else 0)) := by
  obtain ⟨o, c, e, h1, h2, r⟩ := Circ.isEq_run wf hx.ok hy.ok
  exact ⟨o, c, e, ⟨h1, by rw [h2, hx.val, hy.val]⟩, r.weaken (fun _ _ _ => trivial) id⟩

theorem inputize (wf : Wf cs) {x : Row F} {v : F} (hx : Has cs x v) :
    HP cs (Circ.inputize x) (fun _ c => c = { cs with x := cs.x ++ [v] }) := by
  refine ⟨Row.ofWire (.inst cs.x.length), { cs with x := cs.x ++ [v] }, ?_, rfl, ?_⟩
  · unfold Circ.inputize
    rw [Circ.bind_eq (Circ.value_eq hx.ok), hx.val]
    rfl
  · exact Circ.run_push wf (Circ.ext_x cs v) rfl

theorem wsum_bits {c : CS F} : ∀ {bs : List Bin} {ds : List Nat}, HasBits c bs ds → ∀ f : F,
    Circ.wsum (stored c) bs f = f * ((leValue 2 ds : Nat) : F)
  | [], [], _, f => by simp [Circ.wsum, leValue]
  | b :: bs, d :: ds, h, f => by
    cases h with
    | cons h1 h2 =>
      rw [Circ.wsum, wsum_bits h2, h1.val, leValue]
      push_cast; ring

theorem hasBits_reverse {c : CS F} {bs : List Bin} {ds : List Nat} (h : HasBits c bs ds) :
    HasBits c bs.reverse ds.reverse := List.rel_reverse h

theorem leValue_reverse (ds : List Nat) : leValue 2 ds.reverse = beValue 2 ds := by
  have : ∀ (l : List Nat) (a : Nat), leValue 2 (l ++ [a]) = leValue 2 l + 2 ^ l.length * a := by
    intro l a
    induction l with
    | nil => simp [leValue]
    | cons x l ih => simp only [List.cons_append, leValue, ih, List.length_cons]; ring
  induction ds with
  | nil => rfl
  | cons d ds ih =>
    rw [List.reverse_cons, this, ih, List.length_reverse]
    rw [beValue_cons]; ring

theorem enforceEqBits (wf : Wf cs) {x : Row F} {v : F} {bs : List Bin} {ds : List Nat} (hx : Has cs x v)
    (hb : HasBits cs bs ds) (h : v = ((beValue 2 ds : Nat) : F)) : HP cs (Circ.enforceEqBits x bs) (fun _ _ => True) := by
  obtain ⟨c, e, r⟩ := Circ.enforceEqBits_run wf hx.ok hb.alloc
  refine ⟨(), c, e, trivial, r.weaken (fun _ _ _ => trivial) (fun _ => ?_)⟩
  rw [hx.val, wsum_bits (hasBits_reverse hb), leValue_reverse, one_mul, h]

end HP

theorem hasBits_of_spell {c : CS F} {bs : List Bin} (ha : ∀ b ∈ bs, Allocated c b) {ds : List Nat}
    (h : bs.map (stored c) = ds.map (fun d : Nat => (d : F))) : HasBits c bs ds := by
  induction bs generalizing ds with
  | nil => cases ds with
    | nil => exact List.Forall₂.nil
    | cons d ds => simp at h
  | cons b bs ih => cases ds with
    | nil => simp at h
    | cons d ds =>
      simp only [List.map_cons, List.cons.injEq] at h
      exact List.Forall₂.cons ⟨ha b (by simp), h.1⟩ (ih (fun b hb => ha b (by simp [hb])) h.2)

theorem HasBits.map_eq {c : CS F} {bs : List Bin} {ds : List Nat} (h : HasBits c bs ds) :
    bs.map (stored c) = ds.map (fun d : Nat => (d : F)) := by
  induction h with
  | nil => rfl
  | cons h1 _ ih => simp [h1.val, ih]

namespace HP

variable {p : Nat} [Fact p.Prime] {cs : CS (ZMod p)}

theorem rangeCheck (wf : Wf cs) {bs : List Bin} {ds : List Nat} (hb : HasBits cs bs ds) (hd : ∀ d ∈ ds, d = 0 ∨ d = 1)
    {k : ZMod p} (hp : p ≤ 2 ^ 256) (hk : k ≠ 0) (hlen : k.val < 2 ^ bs.length) (h : beValue 2 ds ≤ k.val) :
    HP cs (Circ.rangeCheck bs k) (fun _ _ => True) := by
  obtain ⟨c, e, r⟩ := Circ.rangeCheck_run wf hb.alloc hp hk hlen
  exact ⟨(), c, e, trivial, r.weaken (fun _ _ _ => trivial) (fun _ => ⟨_, h, ds, hd, hb.map_eq, rfl⟩)⟩

/-- `range_check_bits` on a value that fits. -/
theorem rangeCheckBits (wf : Wf cs) {bs : List Bin} {ds : List Nat} (hb : HasBits cs bs ds)
    (hd : ∀ d ∈ ds, d = 0 ∨ d = 1) (hp : p ≤ 2 ^ 256) {n : Nat} (hn0 : 0 < n) (hn : 2 ^ n ≤ p) (hlen : n ≤ bs.length)
    (h : beValue 2 ds < 2 ^ n) : HP cs (Circ.rangeCheckBits bs n) (fun _ _ => True) := by
  have h2 : 2 ≤ 2 ^ n := Nat.pow_le_pow_right (by norm_num : 0 < 2) hn0
  have hv : ((2 : ZMod p) ^ n - 1) = ((2 ^ n - 1 : Nat) : ZMod p) := by
    rw [Nat.cast_sub (by omega)]; push_cast; ring
  have hval : ((2 : ZMod p) ^ n - 1).val = 2 ^ n - 1 := by
    rw [hv, ZMod.val_natCast, Nat.mod_eq_of_lt (by omega)]
  unfold Circ.rangeCheckBits
  refine rangeCheck wf hb hd hp ?_ ?_ ?_
  · intro h0
    rw [h0, ZMod.val_zero] at hval
    omega
  · rw [hval]
    exact lt_of_lt_of_le (by omega) (Nat.pow_le_pow_right (by norm_num : 0 < 2) hlen)
  · rw [hval]; omega

theorem toBits (wf : Wf cs) {x : Row (ZMod p)} {v : ZMod p} (hx : Has cs x v) {nb n : Nat} (hnb : nb ≤ 256)
    (hlo : 2 ^ (nb - 1) < p) (hhi : p ≤ 2 ^ nb) (hn0 : 0 < n) (hn : n ≤ 256) :
    HP cs (Circ.toBits nb x n) (fun o c => ∃ ds, HasBits c o ds ∧ (∀ d ∈ ds, d = 0 ∨ d = 1) ∧ o.length = n ∧
      ds.length = n ∧ beValue 2 ds = v.val % 2 ^ n) := by
  obtain ⟨all, c1, out, cs', -, -, -, e, hl, hal, -, ⟨ds, hd, hm, hv⟩, r⟩ := Circ.toBits_run wf hx.ok hnb hlo hhi hn0 hn
  refine ⟨out, cs', e, ⟨ds, hasBits_of_spell hal hm, hd, hl, ?_, by rw [hv, hx.val]⟩, r.weaken (fun _ _ _ => trivial) id⟩
  have := congrArg List.length hm
  simpa [hl] using this.symm

end HP

/-! ## Points -/

open Curve in
/-- The point rows represent the curve point. -/
def HasPoint {b : F} (c : CS F) (P : PointRow F) (Q : (curve b).Point) : Prop := ∃ v, HasPt c P v ∧ CircRep b v Q

open Curve in
theorem HasPoint.mono {b : F} {c c' : CS F} {P : PointRow F} {Q : (curve b).Point} (h : HasPoint c P Q)
    (e : Extends c c') : HasPoint c' P Q := by
  obtain ⟨v, h1, h2⟩ := h
  exact ⟨v, h1.mono e, h2⟩

open Curve in
/-- The coordinates `descale` produces for a point. -/
def canon {b : F} : (curve b).Point → Proj F
  | .zero => ⟨0, 1, 0⟩
  | .some x y _ => ⟨x, y, 1⟩

open Curve in
theorem canon_rep {b : F} (Q : (curve b).Point) : CircRep b (canon Q) Q := by
  cases Q with
  | zero => exact ⟨rfl, rfl, one_ne_zero⟩
  | some x y h => exact ⟨one_ne_zero, by simp [canon], by simp [canon]⟩

namespace HP

open Curve

variable {cs : CS F} {b : F}

theorem ptWit (wf : Wf cs) (x y : F) (i : Bool) :
    HP cs (Circ.ptWit x y i) (fun o c => HasPt c o ⟨x, y, if i then 0 else 1⟩) :=
  (of_wp (Circ.ptWit_wp wf x y i) trivial).mono (fun _ _ _ _ h => ⟨h.1.1, h.1.2⟩)

theorem ptAdd (h2 : (2 : F) ≠ 0) (hn : NoOrderTwo b) (wf : Wf cs) {p q : PointRow F} {P Q : (curve b).Point}
    (hp : HasPoint cs p P) (hq : HasPoint cs q Q) :
    HP cs (Circ.ptAdd (b + b + b) p q) (fun o c => HasPoint c o (P + Q)) := by
  obtain ⟨v, h1, h1'⟩ := hp
  obtain ⟨w, h3, h3'⟩ := hq
  refine (of_wp (Circ.ptAdd_wp wf (b + b + b) h1.ok h3.ok) trivial).mono (fun o c e _ h => ?_)
  refine ⟨_, ⟨h.1, rfl⟩, ?_⟩
  rw [h.2, (h1.mono e).val, (h3.mono e).val]
  exact rcbAdd_circ h2 hn h1' h3'

theorem ptSelect (wf : Wf cs) {p q : PointRow F} {v w : Proj F} {s : Bin} {t : F} (hp : HasPt cs p v) (hq : HasPt cs q w)
    (hs : HasW cs s t) (ht : t = 0 ∨ t = 1) :
    HP cs (Circ.ptSelect p q s) (fun o c => HasPt c o (if t = 1 then v else w)) := by
  refine (of_wp (Circ.ptSelect_wp wf hp.ok hq.ok hs.ok) trivial).mono (fun o c e _ h => ⟨h.1, ?_⟩)
  rw [h.2, (hp.x.mono e).val, (hp.y.mono e).val, (hp.z.mono e).val, (hq.x.mono e).val, (hq.y.mono e).val,
    (hq.z.mono e).val, (hs.mono e).val]
  rcases ht with rfl | rfl
  · rw [if_neg zero_ne_one]; simp
  · rw [if_pos rfl]; simp

theorem ptDescale (wf : Wf cs) {p : PointRow F} {P : (curve b).Point} (hp : HasPoint cs p P) :
    HP cs (Circ.ptDescale p) (fun o c => HasPt c o (canon P)) := by
  obtain ⟨v, h1, h1'⟩ := hp
  refine (of_wp (Circ.ptDescale_wp wf h1.ok) trivial).mono (fun o c e _ h => ⟨h.1.1, ?_⟩)
  rw [h.1.2, h1.x.val, h1.y.val, h1.z.val]
  cases P with
  | zero => rw [if_pos h1'.2.1]; rfl
  | some x y hn =>
    obtain ⟨k1, k2, k3⟩ := h1'
    rw [if_neg k1, k2, k3]
    simp only [canon, Proj.mk.injEq, and_true]
    exact ⟨by field_simp, by field_simp⟩

theorem ptIdentity_has (wf : Wf cs) : HasPoint cs (Circ.ptIdentity : PointRow F) (0 : (curve b).Point) := by
  refine ⟨⟨0, 1, 0⟩, ⟨⟨Circ.const_ok wf _, Circ.const_ok wf _, Circ.const_ok wf _⟩, ?_⟩, ⟨rfl, rfl, one_ne_zero⟩⟩
  simp only [ptVal, Circ.ptIdentity, Circ.rowVal_const, wf.stored_one, one_mul]

theorem ptScalar {m : Nat} [Fact m.Prime] {b : ZMod m} {cs : CS (ZMod m)} (h2 : (2 : ZMod m) ≠ 0) (hn : NoOrderTwo b)
    (wf : Wf cs) {nb : Nat} (hnb : nb ≤ 256) (hlo : 2 ^ (nb - 1) < m) (hhi : m ≤ 2 ^ nb) {p : PointRow (ZMod m)}
    {P : (curve b).Point} (hp : HasPoint cs p P) {s : Row (ZMod m)} {v : ZMod m} (hs : Has cs s v) :
    HP cs (Circ.ptScalar nb (b + b + b) p s) (fun o c => HasPoint c o (v.val • P)) := by
  unfold Circ.ptScalar
  refine bind (toBits wf hs hnb hlo hhi (by norm_num) (le_refl 256)) (fun bits c1 e1 w1 ⟨ds, hb, hd, hl, hdl, hv⟩ => ?_)
  obtain ⟨pv, hp1, hp2⟩ := hp.mono e1
  have hid := ptIdentity_has (b := b) w1
  obtain ⟨iv, hi1, hi2⟩ := hid
  refine (of_wp (Circ.ptScalarLoop_wp h2 hn bits w1 hp1.ok hb.alloc hi1.ok) trivial).mono (fun o c e w h => ?_)
  refine ⟨_, ⟨h.1, rfl⟩, ?_⟩
  have := h.2 P 0 ds (by rw [(hp1.mono e).val]; exact hp2) (by rw [(hi1.mono e).val, zero_smul]; exact hi2) hd
    (hb.mono e).map_eq
  have hval : ds.foldl (fun acc d => 2 * acc + d) 0 = v.val := by
    have : ds.foldl (fun acc d => 2 * acc + d) 0 = beValue 2 ds := by
      unfold beValue; rfl
    rw [this, hv, Nat.mod_eq_of_lt (lt_of_lt_of_le v.val_lt (hhi.trans (Nat.pow_le_pow_right (by norm_num) hnb)))]
  rwa [hval] at this

end HP

end Kogarashi

/-- Solves `Has c r v`, `HasW c w v`, … from hypotheses, walking back along `Extends` hypotheses. -/
syntax "has" : tactic
macro_rules
  | `(tactic| has) => `(tactic| first
      | assumption
      | exact Kogarashi.Has.const (by assumption) _
      | (apply Kogarashi.Has.add <;> has)
      | (apply Kogarashi.Has.sub <;> has)
      | (apply Kogarashi.Has.ofBin; has)
      | (refine Kogarashi.Has.mono ?_ (by assumption); has)
      | (refine Kogarashi.HasW.mono ?_ (by assumption); has)
      | (refine Kogarashi.HasPt.mono ?_ (by assumption); has)
      | (refine Kogarashi.HasL.mono ?_ (by assumption); has)
      | (refine Kogarashi.HasPoint.mono ?_ (by assumption); has)
      | (refine Kogarashi.HasBits.mono ?_ (by assumption); has))
