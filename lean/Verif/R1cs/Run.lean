import Verif.R1cs.RowLemmas
import Verif.R1cs.Gadget

/-! # Reasoning about runs of circuit code -/

namespace Kogarashi

open Spec

variable {F : Type} [Field F] [DecidableEq F] {α β : Type}

/-- The constraints added between `cs` and `cs'` hold. -/
def NewHolds (cs cs' : CS F) (z : Assignment F) : Prop :=
  ∀ k ∈ cs'.cons.drop cs.cons.length, Holds z k

theorem Spec.Extends.refl (cs : CS F) : Extends cs cs :=
  ⟨List.prefix_refl _, List.prefix_refl _, List.prefix_refl _⟩
theorem Spec.Extends.trans {a b c : CS F} (h : Extends a b) (h' : Extends b c) : Extends a c :=
  ⟨h.x.trans h'.x, h.w.trans h'.w, h.cons.trans h'.cons⟩

theorem Spec.Extends.alloc {cs cs' : CS F} (h : Extends cs cs') {w : Wire} (hw : Allocated cs w) :
    Allocated cs' w := by
  cases w with
  | inst i => exact lt_of_lt_of_le hw h.x.length_le
  | wit i => exact lt_of_lt_of_le hw h.w.length_le

theorem getElem?_prefix {l l' : List F} (h : l <+: l') {i : Nat} (hi : i < l.length) : l'[i]? = l[i]? := by
  obtain ⟨t, rfl⟩ := h
  rw [List.getElem?_append_left hi]

theorem Spec.Extends.stored_eq {cs cs' : CS F} (h : Extends cs cs') {w : Wire} (hw : Allocated cs w) :
    stored cs' w = stored cs w := by
  cases w with
  | inst i => simp only [stored, CS.get, Row.readWire]; rw [getElem?_prefix h.x hw]
  | wit i => simp only [stored, CS.get, Row.readWire]; rw [getElem?_prefix h.w hw]

theorem Spec.Extends.rowVal_eq {cs cs' : CS F} (h : Extends cs cs') {r : Row F} (hr : RowOk cs r) :
    rowVal (stored cs') r = rowVal (stored cs) r :=
  Row.rowVal_congr (fun e he => h.stored_eq (hr.allocated e he))

theorem newHolds_trans {a b c : CS F} (h : Extends a b) (h' : Extends b c) (z : Assignment F) :
    NewHolds a c z ↔ NewHolds a b z ∧ NewHolds b c z := by
  obtain ⟨t, ht⟩ := h.cons
  obtain ⟨t', ht'⟩ := h'.cons
  unfold NewHolds
  rw [← ht', ← ht]
  simp only [List.append_assoc, List.drop_left', List.length_append]
  rw [← List.append_assoc, List.drop_left' (by simp)]
  simp only [List.mem_append]
  constructor
  · intro hh; exact ⟨fun k hk => hh k (Or.inl hk), fun k hk => hh k (Or.inr hk)⟩
  · rintro ⟨h1, h2⟩ k (hk | hk)
    · exact h1 k hk
    · exact h2 k hk

theorem satisfies_iff {cs cs' : CS F} (h : Extends cs cs') (z : Assignment F) :
    Satisfies z cs' ↔ Satisfies z cs ∧ NewHolds cs cs' z := by
  obtain ⟨t, ht⟩ := h.cons
  unfold Satisfies NewHolds
  rw [← ht]
  simp only [List.drop_left', List.mem_append]
  constructor
  · rintro ⟨h0, hh⟩; exact ⟨⟨h0, fun k hk => hh k (Or.inl hk)⟩, fun k hk => hh k (Or.inr hk)⟩
  · rintro ⟨⟨h0, h1⟩, h2⟩
    refine ⟨h0, ?_⟩
    rintro k (hk | hk)
    · exact h1 k hk
    · exact h2 k hk

theorem holds_congr {cs : CS F} {z z' : Assignment F} (h : AgreeOn cs z z') {k : Constraint F}
    (hk : ConstraintOk cs k) : Holds z k ↔ Holds z' k := by
  unfold Holds
  rw [Row.rowVal_congr (fun e he => h _ (hk.a.allocated e he)),
    Row.rowVal_congr (fun e he => h _ (hk.b.allocated e he)),
    Row.rowVal_congr (fun e he => h _ (hk.c.allocated e he))]

theorem newHolds_congr {cs cs' : CS F} (wf : Wf cs') {z z' : Assignment F} (h : AgreeOn cs' z z') :
    NewHolds cs cs' z ↔ NewHolds cs cs' z' := by
  unfold NewHolds
  constructor <;> intro hh k hk
  · exact (holds_congr h (wf.rows k (List.mem_of_mem_drop hk))).mp (hh k hk)
  · exact (holds_congr h (wf.rows k (List.mem_of_mem_drop hk))).mpr (hh k hk)

theorem Spec.Wf.alloc_one {cs : CS F} (wf : Wf cs) : Allocated cs Wire.ONE := by
  have := wf.one
  show 0 < cs.x.length
  by_contra hc
  simp at hc; simp [hc] at this

theorem Spec.Wf.stored_one {cs : CS F} (wf : Wf cs) : stored cs Wire.ONE = 1 := by
  simp [stored, CS.get, Row.readWire, Wire.ONE, wf.one]

/-- Everything the proofs need about a run from `cs` to `cs'`: `S` is what the emitted constraints
force, `H` is what makes the stored values satisfy them. -/
structure Run (cs cs' : CS F) (S : Assignment F → Prop) (H : Prop) : Prop where
  ext : Extends cs cs'
  wf : Wf cs'
  sound : ∀ z, z Wire.ONE = 1 → NewHolds cs cs' z → S z
  honest : H → NewHolds cs cs' (stored cs')

namespace Run

theorem refl {cs : CS F} (wf : Wf cs) : Run cs cs (fun _ => True) True :=
  ⟨Extends.refl cs, wf, fun _ _ _ => trivial, fun _ k hk => by simp at hk⟩

theorem trans {a b c : CS F} {S S' H H'} (r : Run a b S H) (r' : Run b c S' H') :
    Run a c (fun z => S z ∧ S' z) (H ∧ H') := by
  refine ⟨r.ext.trans r'.ext, r'.wf, ?_, ?_⟩
  · intro z hz hn
    obtain ⟨h1, h2⟩ := (newHolds_trans r.ext r'.ext z).mp hn
    exact ⟨r.sound z hz h1, r'.sound z hz h2⟩
  · rintro ⟨h, h'⟩
    rw [newHolds_trans r.ext r'.ext]
    refine ⟨?_, r'.honest h'⟩
    rw [newHolds_congr r.wf (z' := stored b) (fun w hw => r'.ext.stored_eq hw)]
    exact r.honest h

theorem weaken {a b : CS F} {S S' : Assignment F → Prop} {H H' : Prop} (r : Run a b S H)
    (hs : ∀ z, z Wire.ONE = 1 → S z → S' z) (hh : H' → H) : Run a b S' H' :=
  ⟨r.ext, r.wf, fun z hz hn => hs z hz (r.sound z hz hn), fun h => r.honest (hh h)⟩

theorem at_stored {a b : CS F} {S : Assignment F → Prop} {H : Prop} (r : Run a b S H) (h : H) :
    S (stored b) := r.sound _ r.wf.stored_one (r.honest h)

end Run

namespace Circ

theorem bind_eq {g : Circ F α} {f : α → Circ F β} {cs c1 : CS F} {a : α} (h : g cs = some (a, c1)) :
    (g >>= f) cs = f a c1 := by
  show (g cs).bind _ = _
  rw [h]; rfl

theorem bind_none {g : Circ F α} {f : α → Circ F β} {cs : CS F} (h : g cs = none) :
    (g >>= f) cs = none := by
  show (g cs).bind _ = _
  rw [h]; rfl

theorem pure_eq {a : α} {cs : CS F} : (pure a : Circ F α) cs = some (a, cs) := rfl

/-! ## primitive steps -/

theorem wf_push {cs cs' : CS F} (wf : Wf cs) (h : Extends cs cs') (hc : cs'.cons = cs.cons) : Wf cs' := by
  refine ⟨?_, ?_⟩
  · rw [getElem?_prefix h.x (by exact wf.alloc_one)]; exact wf.one
  · intro k hk
    rw [hc] at hk
    exact ⟨(wf.rows k hk).a.mono h, (wf.rows k hk).b.mono h, (wf.rows k hk).c.mono h⟩

theorem run_push {cs cs' : CS F} (wf : Wf cs) (h : Extends cs cs') (hc : cs'.cons = cs.cons) :
    Run cs cs' (fun _ => True) True :=
  ⟨h, wf_push wf h hc, fun _ _ _ => trivial, fun _ k hk => by simp [hc] at hk⟩

theorem ext_w (cs : CS F) (v : F) : Extends cs { cs with w := cs.w ++ [v] } :=
  ⟨List.prefix_refl _, List.prefix_append _ _, List.prefix_refl _⟩
theorem ext_x (cs : CS F) (v : F) : Extends cs { cs with x := cs.x ++ [v] } :=
  ⟨List.prefix_append _ _, List.prefix_refl _, List.prefix_refl _⟩

/-- allocating a witness wire -/
theorem witWire_run {cs : CS F} (wf : Wf cs) (v : F) :
    ∃ out cs', witWire v cs = some (out, cs') ∧ Allocated cs' out ∧ ¬ Allocated cs out ∧
      stored cs' out = v ∧ cs'.cons = cs.cons ∧ Run cs cs' (fun _ => True) True :=
  ⟨_, _, rfl, by simp [Allocated], by simp [Allocated], by simp [stored, CS.get, Row.readWire], rfl,
    run_push wf (ext_w cs v) rfl⟩

theorem binWit_run {cs : CS F} (wf : Wf cs) (v : Nat) :
    ∃ out cs', binWit v cs = some (out, cs') ∧ Allocated cs' out ∧ ¬ Allocated cs out ∧
      stored cs' out = (v : F) ∧ cs'.cons = cs.cons ∧ Run cs cs' (fun _ => True) True :=
  witWire_run wf (v : F)

theorem wit_run {cs : CS F} (wf : Wf cs) (v : F) :
    ∃ out cs', wit v cs = some (out, cs') ∧ RowOk cs' out ∧ rowVal (stored cs') out = v ∧
      Run cs cs' (fun _ => True) True :=
  ⟨_, _, rfl, RowOk.ofWire (by simp [Allocated]), by simp [stored, CS.get, Row.readWire],
    run_push wf (ext_w cs v) rfl⟩

theorem inst_run {cs : CS F} (wf : Wf cs) (v : F) :
    ∃ out cs', inst v cs = some (out, cs') ∧ RowOk cs' out ∧ rowVal (stored cs') out = v ∧
      Run cs cs' (fun _ => True) True :=
  ⟨_, _, rfl, RowOk.ofWire (by simp [Allocated]), by simp [stored, CS.get, Row.readWire],
    run_push wf (ext_x cs v) rfl⟩

theorem value_eq {cs : CS F} {r : Row F} (h : RowOk cs r) :
    value r cs = some (rowVal (stored cs) r, cs) := by
  simp [value, Row.evaluate_stored h]

theorem read_eq {cs : CS F} {w : Wire} (h : Allocated cs w) : read w cs = some (stored cs w, cs) := by
  simp [read, CS.get, Row.readWire_stored h]

/-- emitting one constraint -/
theorem mulGate_run {cs : CS F} (wf : Wf cs) {x y z : Row F} (hx : RowOk cs x) (hy : RowOk cs y)
    (hz : RowOk cs z) :
    ∃ cs', mulGate x y z cs = some ((), cs') ∧
      Run cs cs' (fun s => rowVal s x * rowVal s y = rowVal s z)
        (rowVal (stored cs) x * rowVal (stored cs) y = rowVal (stored cs) z) := by
  refine ⟨_, rfl, ?_⟩
  have hext : Extends cs (cs.mulGate x y z) :=
    ⟨List.prefix_refl _, List.prefix_refl _, List.prefix_append _ _⟩
  have hnew : ∀ s, NewHolds cs (cs.mulGate x y z) s ↔ rowVal s x * rowVal s y = rowVal s z := by
    intro s
    simp [NewHolds, CS.mulGate, CS.append, Holds]
  refine ⟨hext, ⟨wf.one, ?_⟩, fun s _ h => (hnew s).mp h, fun h => (hnew _).mpr ?_⟩
  · intro k hk
    simp only [CS.mulGate, CS.append, List.mem_append, List.mem_singleton] at hk
    rcases hk with hk | rfl
    · exact ⟨(wf.rows k hk).a.mono hext, (wf.rows k hk).b.mono hext, (wf.rows k hk).c.mono hext⟩
    · exact ⟨hx.mono hext, hy.mono hext, hz.mono hext⟩
  · rw [hext.rowVal_eq hx, hext.rowVal_eq hy, hext.rowVal_eq hz]; exact h

theorem const_ok {cs : CS F} (wf : Wf cs) (c : F) : RowOk cs (const c) :=
  ⟨by simp [DistinctWires, const], fun e he => by simp [const] at he; subst he; exact wf.alloc_one⟩

@[simp] theorem rowVal_const (z : Assignment F) (c : F) : rowVal z (const c) = z Wire.ONE * c := by
  simp [const]

@[simp] theorem rowVal_ofBin (z : Assignment F) (b : Bin) : rowVal z (ofBin b : Row F) = z b := by
  simp [ofBin]

theorem ofBin_ok {cs : CS F} {b : Bin} (h : Allocated cs b) : RowOk cs (ofBin b : Row F) := RowOk.ofWire h

/-! ## field gadgets -/

theorem mul_run {cs : CS F} (wf : Wf cs) {x y : Row F} (hx : RowOk cs x) (hy : RowOk cs y) :
    ∃ out cs', mul x y cs = some (out, cs') ∧ RowOk cs' out ∧
      Run cs cs' (fun z => rowVal z out = rowVal z x * rowVal z y) True := by
  unfold mul
  cases hcx : x.asConstant with
  | some c =>
    refine ⟨_, cs, rfl, hy.smul c, (Run.refl wf).weaken (fun z hz _ => ?_) id⟩
    rw [Row.rowVal_smul, Row.rowVal_asConstant z hcx hz]; ring
  | none =>
    cases hcy : y.asConstant with
    | some c =>
      refine ⟨_, cs, rfl, hx.smul c, (Run.refl wf).weaken (fun z hz _ => ?_) id⟩
      rw [Row.rowVal_smul, Row.rowVal_asConstant z hcy hz]
    | none =>
      obtain ⟨o, c1, e1, ok1, v1, r1⟩ := wit_run wf (rowVal (stored cs) x * rowVal (stored cs) y)
      obtain ⟨c2, e2, r2⟩ := mulGate_run r1.wf (hx.mono r1.ext) (hy.mono r1.ext) ok1
      refine ⟨o, c2, ?_, ok1.mono r2.ext, (r1.trans r2).weaken (fun z _ h => h.2.symm) ?_⟩
      · simp only []
        rw [bind_eq (value_eq hx), bind_eq (value_eq hy), bind_eq e1, bind_eq e2]; rfl
      · intro _
        refine ⟨trivial, ?_⟩
        rw [r1.ext.rowVal_eq hx, r1.ext.rowVal_eq hy, v1]

theorem add_run {cs : CS F} (wf : Wf cs) {x y : Row F} (hx : RowOk cs x) (hy : RowOk cs y) :
    ∃ out cs', add x y cs = some (out, cs') ∧ RowOk cs' out ∧
      Run cs cs' (fun z => rowVal z out = rowVal z x + rowVal z y) True := by
  unfold add
  cases hcx : x.asConstant with
  | some c =>
    refine ⟨_, cs, rfl, hy.add (RowOk.ofConst wf c), (Run.refl wf).weaken (fun z hz _ => ?_) id⟩
    rw [Row.rowVal_add z hy.1 (Row.distinct_ofConst c), Row.rowVal_ofConst, hz,
      Row.rowVal_asConstant z hcx hz]; ring
  | none =>
    cases hcy : y.asConstant with
    | some c =>
      refine ⟨_, cs, rfl, hx.add (RowOk.ofConst wf c), (Run.refl wf).weaken (fun z hz _ => ?_) id⟩
      rw [Row.rowVal_add z hx.1 (Row.distinct_ofConst c), Row.rowVal_ofConst, hz,
        Row.rowVal_asConstant z hcy hz]; ring
    | none =>
      obtain ⟨o, c1, e1, ok1, v1, r1⟩ := wit_run wf (rowVal (stored cs) x + rowVal (stored cs) y)
      have hxy := (hx.mono r1.ext).add (hy.mono r1.ext)
      obtain ⟨c2, e2, r2⟩ := mulGate_run r1.wf hxy (RowOk.ofWire r1.wf.alloc_one) ok1
      refine ⟨o, c2, ?_, ok1.mono r2.ext, (r1.trans r2).weaken (fun z hz h => ?_) ?_⟩
      · simp only []
        rw [bind_eq (value_eq hx), bind_eq (value_eq hy), bind_eq e1,
          bind_eq (g := addGate x y o) (a := ()) (c1 := c2) e2]; rfl
      · have := h.2
        rw [Row.rowVal_add z hx.1 hy.1, Row.rowVal_ofWire, hz, mul_one] at this
        exact this.symm
      · intro _
        refine ⟨trivial, ?_⟩
        rw [Row.rowVal_add _ hx.1 hy.1, Row.rowVal_ofWire, r1.wf.stored_one, mul_one,
          r1.ext.rowVal_eq hx, r1.ext.rowVal_eq hy, v1]

theorem enforceEq_run {cs : CS F} (wf : Wf cs) {x y : Row F} (hx : RowOk cs x) (hy : RowOk cs y) :
    ∃ cs', enforceEq x y cs = some ((), cs') ∧
      Run cs cs' (fun z => rowVal z x = rowVal z y) (rowVal (stored cs) x = rowVal (stored cs) y) := by
  obtain ⟨c, e, r⟩ := mulGate_run wf hx (RowOk.one wf) hy
  refine ⟨c, e, r.weaken (fun z hz h => ?_) (fun h => ?_)⟩
  · rwa [Row.rowVal_one, hz, mul_one] at h
  · rw [Row.rowVal_one, wf.stored_one, mul_one]; exact h

theorem enforceEqConstant_run {cs : CS F} (wf : Wf cs) {x : Row F} (hx : RowOk cs x) (k : F) :
    ∃ cs', enforceEqConstant x k cs = some ((), cs') ∧
      Run cs cs' (fun z => rowVal z x = k) (rowVal (stored cs) x = k) := by
  obtain ⟨c, e, r⟩ := mulGate_run wf hx (RowOk.one wf) (const_ok wf k)
  refine ⟨c, e, r.weaken (fun z hz h => ?_) (fun h => ?_)⟩
  · rwa [Row.rowVal_one, rowVal_const, hz, mul_one, one_mul] at h
  · rw [Row.rowVal_one, rowVal_const, wf.stored_one, mul_one, one_mul]; exact h

/-- big-endian weighted sum of field values -/
def wsum (z : Assignment F) : List Bin → F → F
  | [], _ => 0
  | b :: bs, f => f * z b + wsum z bs (f + f)

theorem weightedSum_run {bs : List Bin} : ∀ {cs : CS F} (_ : Wf cs) (f : F) {acc : Row F}
    (_ : RowOk cs acc) (_ : ∀ b ∈ bs, Allocated cs b),
    ∃ out cs', weightedSum bs f acc cs = some (out, cs') ∧ RowOk cs' out ∧
      Run cs cs' (fun z => rowVal z out = rowVal z acc + wsum z bs f) True := by
  induction bs with
  | nil =>
    intro cs wf f acc hacc _
    exact ⟨acc, cs, rfl, hacc, (Run.refl wf).weaken (fun z _ _ => by simp [wsum]) id⟩
  | cons b bs ih =>
    intro cs wf f acc hacc hb
    obtain ⟨m, c1, e1, ok1, r1⟩ := mul_run wf (const_ok wf f) (ofBin_ok (hb b (by simp)))
    obtain ⟨o, c2, e2, ok2, r2⟩ := ih r1.wf (f + f) ((hacc.mono r1.ext).add ok1)
      (fun b' h' => r1.ext.alloc (hb b' (by simp [h'])))
    refine ⟨o, c2, ?_, ok2, (r1.trans r2).weaken (fun z hz h => ?_) (fun _ => ⟨trivial, trivial⟩)⟩
    · unfold weightedSum; rw [bind_eq e1]; exact e2
    · have h1 := h.1
      have h2 := h.2
      rw [Row.rowVal_add z hacc.1 ok1.1, h1] at h2
      rw [h2]
      simp [wsum, hz]; ring

theorem enforceEqBits_run {cs : CS F} (wf : Wf cs) {x : Row F} {bs : List Bin} (hx : RowOk cs x)
    (hb : ∀ b ∈ bs, Allocated cs b) :
    ∃ cs', enforceEqBits x bs cs = some ((), cs') ∧
      Run cs cs' (fun z => rowVal z x = wsum z bs.reverse 1)
        (rowVal (stored cs) x = wsum (stored cs) bs.reverse 1) := by
  obtain ⟨s, c1, e1, ok1, r1⟩ := weightedSum_run wf (1 : F) (const_ok wf 0)
    (fun b h => hb b (List.mem_reverse.mp h))
  obtain ⟨c2, e2, r2⟩ := enforceEq_run r1.wf (hx.mono r1.ext) ok1
  refine ⟨c2, ?_, (r1.trans r2).weaken (fun z hz h => ?_) (fun h => ⟨trivial, ?_⟩)⟩
  · unfold enforceEqBits; rw [bind_eq e1]; exact e2
  · rw [h.2, h.1]; simp
  · have hs := r1.at_stored trivial
    rw [hs, r1.ext.rowVal_eq hx, h]
    simp only [rowVal_const, mul_zero, zero_add]
    have : ∀ (l : List Bin) (f : F), (∀ b ∈ l, Allocated cs b) →
        wsum (stored cs) l f = wsum (stored c1) l f := by
      intro l
      induction l with
      | nil => intros; rfl
      | cons b l ih =>
        intro f hl
        simp only [wsum]
        rw [ih _ (fun b' h' => hl b' (by simp [h'])), r1.ext.stored_eq (hl b (by simp))]
    exact this _ _ (fun b h => hb b (List.mem_reverse.mp h))

theorem conditionalEnforceEqual_run {cs : CS F} (wf : Wf cs) {x y : Row F} {s : Bin} (hx : RowOk cs x)
    (hy : RowOk cs y) (hs : Allocated cs s) :
    ∃ cs', conditionalEnforceEqual x y s cs = some ((), cs') ∧
      Run cs cs' (fun z => z s = 0 ∨ rowVal z x = rowVal z y)
        (stored cs s = 0 ∨ rowVal (stored cs) x = rowVal (stored cs) y) := by
  obtain ⟨m, c1, e1, ok1, r1⟩ := mul_run wf (hx.sub hy) (ofBin_ok hs)
  obtain ⟨c2, e2, r2⟩ := enforceEqConstant_run r1.wf ok1 0
  refine ⟨c2, ?_, (r1.trans r2).weaken (fun z hz h => ?_) (fun h => ⟨trivial, ?_⟩)⟩
  · unfold conditionalEnforceEqual; rw [bind_eq e1]; exact e2
  · have h1 := h.1
    rw [h.2, Row.rowVal_sub z hx.1 hy.1, rowVal_ofBin] at h1
    rcases mul_eq_zero.mp h1.symm with h | h
    · exact Or.inr (sub_eq_zero.mp h)
    · exact Or.inl h
  · rw [r1.at_stored trivial, Row.rowVal_sub _ hx.1 hy.1, rowVal_ofBin, r1.ext.rowVal_eq hx,
      r1.ext.rowVal_eq hy, r1.ext.stored_eq hs]
    rcases h with h | h
    · rw [h, mul_zero]
    · rw [h, sub_self, zero_mul]

theorem conditionalSelect_run {cs : CS F} (wf : Wf cs) {a b : Row F} {s : Bin} (ha : RowOk cs a)
    (hb : RowOk cs b) (hs : Allocated cs s) :
    ∃ out cs', conditionalSelect a b s cs = some (out, cs') ∧ RowOk cs' out ∧
      Run cs cs' (fun z => rowVal z out = rowVal z a * z s + rowVal z b * (1 - z s)) True := by
  obtain ⟨m, c1, e1, ok1, r1⟩ := mul_run wf ha (ofBin_ok hs)
  obtain ⟨m2, c2, e2, ok2, r2⟩ := mul_run r1.wf (hb.mono r1.ext)
    ((const_ok r1.wf 1).sub (ofBin_ok (r1.ext.alloc hs)))
  refine ⟨_, c2, ?_, (ok1.mono r2.ext).add ok2, (r1.trans r2).weaken (fun z hz h => ?_)
    (fun _ => ⟨trivial, trivial⟩)⟩
  · unfold conditionalSelect; rw [bind_eq e1, bind_eq e2]; rfl
  · rw [Row.rowVal_add z ok1.1 ok2.1, h.1, h.2, Row.rowVal_sub z (const_ok wf 1).1 (ofBin_ok hs).1]
    simp [hz]

theorem not_run {cs : CS F} (wf : Wf cs) {b : Bin} (hb : Allocated cs b) :
    ∃ out cs', not b cs = some (out, cs') ∧ Allocated cs' out ∧ ¬ Allocated cs out ∧
      stored cs' out = (if stored cs b = 1 then 0 else 1) ∧ cs'.cons = cs.cons ∧
      Run cs cs' (fun _ => True) True := by
  obtain ⟨o, c, e, h⟩ := witWire_run wf (if stored cs b = 1 then (0 : F) else 1)
  refine ⟨o, c, ?_, h⟩
  unfold not; rw [bind_eq (read_eq hb)]; exact e

theorem and_run {cs : CS F} (wf : Wf cs) {a b : Bin} (ha : Allocated cs a) (hb : Allocated cs b) :
    ∃ out cs', and a b cs = some (out, cs') ∧ Allocated cs' out ∧ ¬ Allocated cs out ∧
      stored cs' out = (if stored cs a = 1 ∧ stored cs b = 1 then 1 else 0) ∧ cs'.cons = cs.cons ∧
      Run cs cs' (fun _ => True) True := by
  obtain ⟨o, c, e, h⟩ := witWire_run wf (if stored cs a = 1 ∧ stored cs b = 1 then (1 : F) else 0)
  refine ⟨o, c, ?_, h⟩
  unfold and; rw [bind_eq (read_eq ha), bind_eq (read_eq hb)]; exact e

theorem isNeq_run {cs : CS F} (wf : Wf cs) {x y : Row F} (hx : RowOk cs x) (hy : RowOk cs y) :
    ∃ out cs', isNeq x y cs = some (out, cs') ∧ Allocated cs' out ∧
      stored cs' out = (if rowVal (stored cs) x = rowVal (stored cs) y then 0 else 1) ∧
      Run cs cs' (fun z => rowVal z x = rowVal z y → z out = 0) True := by
  set vx := rowVal (stored cs) x with hvx
  set vy := rowVal (stored cs) y with hvy
  obtain ⟨ne, c1, e1, al1, _, s1, _, r1⟩ := binWit_run wf (if vx ≠ vy then 1 else 0)
  obtain ⟨mu, c2, e2, ok2, v2, r2⟩ := wit_run r1.wf (if vx ≠ vy then (vx - vy)⁻¹ else 1)
  have r12 := r1.trans r2
  have hx2 := hx.mono r12.ext
  have hy2 := hy.mono r12.ext
  obtain ⟨m, c3, e3, ok3, r3⟩ := mul_run r2.wf (hx2.sub hy2) ok2
  have r13 := r12.trans r3
  have hne3 : Allocated c3 ne := (r2.trans r3).ext.alloc al1
  obtain ⟨c4, e4, r4⟩ := enforceEq_run r3.wf ok3 (ofBin_ok hne3)
  have hne4 := r4.ext.alloc hne3
  have r14 := r13.trans r4
  obtain ⟨nne, c5, e5, al5, _, s5, _, r5⟩ := not_run r4.wf hne4
  have r15 := r14.trans r5
  obtain ⟨m2, c6, e6, ok6, r6⟩ := mul_run r5.wf ((hx.mono r15.ext).sub (hy.mono r15.ext)) (ofBin_ok al5)
  have r16 := r15.trans r6
  obtain ⟨c7, e7, r7⟩ := enforceEq_run r6.wf ok6 (const_ok r6.wf 0)
  have r17 := r16.trans r7
  have sne : ∀ c, Extends c1 c → stored c ne = if vx = vy then 0 else 1 := by
    intro c hc
    rw [hc.stored_eq al1, s1]
    by_cases h : vx = vy <;> simp [h]
  have e24 := (r2.trans (r3.trans r4)).ext
  refine ⟨ne, c7, ?_, (r5.trans (r6.trans r7)).ext.alloc hne4,
    sne c7 (e24.trans (r5.trans (r6.trans r7)).ext), r17.weaken (fun z hz h => ?_) (fun _ => ?_)⟩
  · unfold isNeq
    rw [bind_eq (value_eq hx), bind_eq (value_eq hy), bind_eq e1, bind_eq e2]
    rw [bind_eq e3, bind_eq e4, bind_eq e5, bind_eq e6, bind_eq e7]; rfl
  · intro heq
    have h3 := h.1.1.1.1.2
    have h4 := h.1.1.1.2
    rw [rowVal_ofBin] at h4
    rw [← h4, h3, Row.rowVal_sub z hx.1 hy.1, heq, sub_self, zero_mul]
  · refine ⟨⟨⟨⟨⟨⟨trivial, trivial⟩, trivial⟩, ?_⟩, trivial⟩, trivial⟩, ?_⟩
    · rw [rowVal_ofBin, sne c3 (r2.trans r3).ext, r3.at_stored trivial, Row.rowVal_sub _ hx.1 hy.1,
        r13.ext.rowVal_eq hx, r13.ext.rowVal_eq hy, r3.ext.rowVal_eq ok2, v2, ← hvx, ← hvy]
      by_cases h : vx = vy
      · simp [h]
      · have : vx - vy ≠ 0 := sub_ne_zero.mpr h
        simp [h, this]
    · rw [r6.at_stored trivial, Row.rowVal_sub _ hx.1 hy.1,
        r16.ext.rowVal_eq hx, r16.ext.rowVal_eq hy, rowVal_ofBin, r6.ext.stored_eq al5, s5,
        sne c4 e24, ← hvx, ← hvy]
      by_cases h : vx = vy <;> simp [h]

theorem isEq_run {cs : CS F} (wf : Wf cs) {x y : Row F} (hx : RowOk cs x) (hy : RowOk cs y) :
    ∃ out cs', isEq x y cs = some (out, cs') ∧ Allocated cs' out ∧
      stored cs' out = (if rowVal (stored cs) x = rowVal (stored cs) y then 1 else 0) ∧
      Run cs cs' (fun _ => True) True := by
  obtain ⟨o, c1, e1, al1, s1, r1⟩ := isNeq_run wf hx hy
  obtain ⟨o2, c2, e2, al2, _, s2, _, r2⟩ := not_run r1.wf al1
  refine ⟨o2, c2, ?_, al2, ?_, (r1.trans r2).weaken (fun _ _ _ => trivial) (fun _ => ⟨trivial, trivial⟩)⟩
  · unfold isEq; rw [bind_eq e1]; exact e2
  · rw [s2, s1]
    by_cases h : rowVal (stored cs) x = rowVal (stored cs) y <;> simp [h]

/-! ## shape uniformity -/

theorem _root_.Kogarashi.Spec.Uniform.pure (a : α) : Uniform (pure a : Circ F α) (Pure.pure a) :=
  fun c1 c2 h => Or.inr ⟨a, c1, c2, rfl, rfl, h⟩

theorem _root_.Kogarashi.Spec.Uniform.failure : Uniform (failure : Circ F α) failure :=
  fun _ _ _ => Or.inl ⟨rfl, rfl⟩

theorem _root_.Kogarashi.Spec.Uniform.bind {g h : Circ F α} {f k : α → Circ F β} (hg : Uniform g h)
    (hf : ∀ a, Uniform (f a) (k a)) : Uniform (g >>= f) (h >>= k) := by
  intro c1 c2 hc
  rcases hg c1 c2 hc with ⟨h1, h2⟩ | ⟨a, c1', c2', h1, h2, hc'⟩
  · exact Or.inl ⟨bind_none h1, bind_none h2⟩
  · rw [bind_eq h1, bind_eq h2]
    exact hf a c1' c2' hc'

theorem _root_.Kogarashi.Spec.SameShape.alloc {c1 c2 : CS F} (h : SameShape c1 c2) (w : Wire) :
    Allocated c1 w ↔ Allocated c2 w := by
  cases w with
  | inst i => simp only [Allocated, h.x]
  | wit i => simp only [Allocated, h.w]

theorem evaluate_none_iff {cs : CS F} {r : Row F} :
    r.evaluate cs.x cs.w = none ↔ ∃ e ∈ r, ¬ Allocated cs e.1 := by
  constructor
  · intro h
    by_contra hc
    have hc' : ∀ e ∈ r, Allocated cs e.1 := fun e he => by
      by_contra h'; exact hc ⟨e, he, h'⟩
    rw [Row.evaluate_eq (fun e he => Row.readWire_stored (hc' e he))] at h
    simp at h
  · rintro ⟨e, he, h⟩
    have : Row.readWire cs.x cs.w e.1 = none := by
      rw [← Row.readWire_isSome (cs := cs)] at h
      simpa using h
    exact Row.evaluate_none_aux r 0 he this

theorem _root_.Kogarashi.Spec.Uniform.value {r : Row F} {f k : F → Circ F β} (hf : ∀ a b, Uniform (f a) (k b)) :
    Uniform (value r >>= f) (value r >>= k) := by
  intro c1 c2 hc
  cases h1 : r.evaluate c1.x c1.w with
  | none =>
    have h2 : r.evaluate c2.x c2.w = none := by
      rw [evaluate_none_iff] at h1 ⊢
      obtain ⟨e, he, h⟩ := h1
      exact ⟨e, he, fun h' => h ((hc.alloc _).mpr h')⟩
    exact Or.inl ⟨bind_none (by simp [Circ.value, h1]), bind_none (by simp [Circ.value, h2])⟩
  | some v1 =>
    cases h2 : r.evaluate c2.x c2.w with
    | none =>
      exfalso
      rw [evaluate_none_iff] at h2
      obtain ⟨e, he, h⟩ := h2
      have : r.evaluate c1.x c1.w = none := evaluate_none_iff.mpr ⟨e, he, fun h' => h ((hc.alloc _).mp h')⟩
      rw [h1] at this; simp at this
    | some v2 =>
      rw [bind_eq (g := Circ.value r) (a := v1) (c1 := c1) (by simp [Circ.value, h1]),
        bind_eq (g := Circ.value r) (a := v2) (c1 := c2) (by simp [Circ.value, h2])]
      exact hf v1 v2 c1 c2 hc

theorem _root_.Kogarashi.Spec.Uniform.read {w : Wire} {f k : F → Circ F β} (hf : ∀ a b, Uniform (f a) (k b)) :
    Uniform (read w >>= f) (read w >>= k) := by
  intro c1 c2 hc
  by_cases h : Allocated c1 w
  · rw [bind_eq (read_eq h), bind_eq (read_eq ((hc.alloc w).mp h))]
    exact hf _ _ c1 c2 hc
  · have h1 : Circ.read w c1 = none := by
      rw [← Row.readWire_isSome] at h
      simp at h
      simp [Circ.read, CS.get, h]
    have h2 : Circ.read w c2 = none := by
      rw [hc.alloc w, ← Row.readWire_isSome] at h
      simp at h
      simp [Circ.read, CS.get, h]
    exact Or.inl ⟨bind_none h1, bind_none h2⟩

theorem _root_.Kogarashi.Spec.Uniform.witWire (u v : F) : Uniform (witWire u) (witWire v) := by
  intro c1 c2 h
  refine Or.inr ⟨.wit c1.w.length, { c1 with w := c1.w ++ [(u : F)] }, { c2 with w := c2.w ++ [(v : F)] },
    rfl, ?_, ⟨h.x, by simp [h.w], h.cons⟩⟩
  rw [h.w]; rfl
theorem _root_.Kogarashi.Spec.Uniform.binWit (u v : Nat) : Uniform (binWit u : Circ F Bin) (binWit v) := Uniform.witWire _ _
theorem _root_.Kogarashi.Spec.Uniform.binInst (u v : Nat) : Uniform (binInst u : Circ F Bin) (binInst v) := by
  intro c1 c2 h
  refine Or.inr ⟨.inst c1.x.length, { c1 with x := c1.x ++ [(u : F)] }, { c2 with x := c2.x ++ [(v : F)] },
    rfl, ?_, ⟨by simp [h.x], h.w, h.cons⟩⟩
  rw [h.x]; rfl
theorem _root_.Kogarashi.Spec.Uniform.wit (u v : F) : Uniform (wit u) (wit v) := by
  intro c1 c2 h
  refine Or.inr ⟨Row.ofWire (.wit c1.w.length), { c1 with w := c1.w ++ [(u : F)] }, { c2 with w := c2.w ++ [(v : F)] },
    rfl, ?_, ⟨h.x, by simp [h.w], h.cons⟩⟩
  rw [h.w]; rfl
theorem _root_.Kogarashi.Spec.Uniform.inst (u v : F) : Uniform (inst u) (inst v) := by
  intro c1 c2 h
  refine Or.inr ⟨Row.ofWire (.inst c1.x.length), { c1 with x := c1.x ++ [(u : F)] }, { c2 with x := c2.x ++ [(v : F)] },
    rfl, ?_, ⟨by simp [h.x], h.w, h.cons⟩⟩
  rw [h.x]; rfl
theorem _root_.Kogarashi.Spec.Uniform.mulGate (x y z : Row F) : Uniform (mulGate x y z) (mulGate x y z) := by
  intro c1 c2 h
  refine Or.inr ⟨(), _, _, rfl, rfl, ⟨h.x, h.w, ?_⟩⟩
  simp [CS.mulGate, CS.append, h.cons]
theorem _root_.Kogarashi.Spec.Uniform.addGate (x y z : Row F) : Uniform (addGate x y z) (addGate x y z) := Uniform.mulGate _ _ _
theorem _root_.Kogarashi.Spec.Uniform.enforceEq (x y : Row F) : Uniform (enforceEq x y) (enforceEq x y) := Uniform.mulGate _ _ _
theorem _root_.Kogarashi.Spec.Uniform.enforceEqConstant (x : Row F) (c : F) :
    Uniform (enforceEqConstant x c) (enforceEqConstant x c) := Uniform.mulGate _ _ _
theorem _root_.Kogarashi.Spec.Uniform.inputize (x : Row F) : Uniform (inputize x) (inputize x) :=
  Uniform.value (fun a b => Uniform.inst a b)
theorem _root_.Kogarashi.Spec.Uniform.mul (x y : Row F) : Uniform (mul x y) (mul x y) := by
  unfold Circ.mul
  cases x.asConstant with
  | some c => exact Uniform.pure _
  | none =>
    cases y.asConstant with
    | some c => exact Uniform.pure _
    | none =>
      exact Uniform.value fun a b => Uniform.value fun a' b' => (Uniform.wit _ _).bind fun z =>
        (Uniform.mulGate _ _ _).bind fun _ => Uniform.pure _
theorem _root_.Kogarashi.Spec.Uniform.add (x y : Row F) : Uniform (add x y) (add x y) := by
  unfold Circ.add
  cases x.asConstant with
  | some c => exact Uniform.pure _
  | none =>
    cases y.asConstant with
    | some c => exact Uniform.pure _
    | none =>
      exact Uniform.value fun a b => Uniform.value fun a' b' => (Uniform.wit _ _).bind fun z =>
        (Uniform.addGate _ _ _).bind fun _ => Uniform.pure _
theorem _root_.Kogarashi.Spec.Uniform.weightedSum (bs : List Bin) : ∀ (f : F) (acc : Row F),
    Uniform (weightedSum bs f acc) (weightedSum bs f acc) := by
  induction bs with
  | nil => intro f acc; exact Uniform.pure _
  | cons b bs ih => intro f acc; exact (Uniform.mul _ _).bind fun m => ih _ _
theorem _root_.Kogarashi.Spec.Uniform.enforceEqBits (x : Row F) (bs : List Bin) :
    Uniform (enforceEqBits x bs) (enforceEqBits x bs) :=
  (Uniform.weightedSum _ _ _).bind fun _ => Uniform.enforceEq _ _
theorem _root_.Kogarashi.Spec.Uniform.conditionalEnforceEqual (x y : Row F) (s : Bin) :
    Uniform (conditionalEnforceEqual x y s) (conditionalEnforceEqual x y s) :=
  (Uniform.mul _ _).bind fun _ => Uniform.enforceEqConstant _ _
theorem _root_.Kogarashi.Spec.Uniform.conditionalSelect (x y : Row F) (s : Bin) :
    Uniform (conditionalSelect x y s) (conditionalSelect x y s) :=
  (Uniform.mul _ _).bind fun _ => (Uniform.mul _ _).bind fun _ => Uniform.pure _
theorem _root_.Kogarashi.Spec.Uniform.not (b : Bin) : Uniform (not b : Circ F Bin) (not b) :=
  Uniform.read fun _ _ => Uniform.witWire _ _
theorem _root_.Kogarashi.Spec.Uniform.and (a b : Bin) : Uniform (and a b : Circ F Bin) (and a b) :=
  Uniform.read fun _ _ => Uniform.read fun _ _ => Uniform.witWire _ _
theorem _root_.Kogarashi.Spec.Uniform.isNeq (x y : Row F) : Uniform (isNeq x y) (isNeq x y) :=
  Uniform.value fun _ _ => Uniform.value fun _ _ => (Uniform.binWit _ _).bind fun _ =>
    (Uniform.wit _ _).bind fun _ => (Uniform.mul _ _).bind fun _ => (Uniform.enforceEq _ _).bind fun _ =>
    (Uniform.not _).bind fun _ => (Uniform.mul _ _).bind fun _ => (Uniform.enforceEq _ _).bind fun _ =>
    Uniform.pure _
theorem _root_.Kogarashi.Spec.Uniform.isEq (x y : Row F) : Uniform (isEq x y) (isEq x y) :=
  (Uniform.isNeq _ _).bind fun _ => Uniform.not _

/-! ## completion -/

/-- The same system with other values on its wires. -/
def _root_.Kogarashi.CS.withValues (cs : CS F) (z : Assignment F) : CS F :=
  { x := (List.range cs.x.length).map (fun i => z (.inst i))
    w := (List.range cs.w.length).map (fun i => z (.wit i))
    cons := cs.cons }

theorem sameShape_withValues (cs : CS F) (z : Assignment F) : SameShape cs (cs.withValues z) :=
  ⟨by simp [CS.withValues], by simp [CS.withValues], rfl⟩

theorem stored_withValues {cs : CS F} {z : Assignment F} {w : Wire} (h : Allocated cs w) :
    stored (cs.withValues z) w = z w := by
  cases w with
  | inst i =>
    have h' : i < cs.x.length := h
    simp [stored, CS.get, Row.readWire, CS.withValues, h']
  | wit i =>
    have h' : i < cs.w.length := h
    simp [stored, CS.get, Row.readWire, CS.withValues, h']

theorem _root_.Kogarashi.Spec.SameShape.rowOk {c1 c2 : CS F} (h : SameShape c1 c2) {r : Row F}
    (hr : RowOk c1 r) : RowOk c2 r := ⟨hr.1, fun e he => (h.alloc _).mp (hr.2 e he)⟩

theorem wf_withValues {cs : CS F} (wf : Wf cs) {z : Assignment F} (hz : z Wire.ONE = 1) :
    Wf (cs.withValues z) := by
  have h := sameShape_withValues cs z
  have h0 : 0 < cs.x.length := wf.alloc_one
  refine ⟨?_, fun k hk => ?_⟩
  · simp [CS.withValues, h0]; exact hz
  · have hk := wf.rows k hk
    exact ⟨h.rowOk hk.a, h.rowOk hk.b, h.rowOk hk.c⟩

theorem rowVal_withValues {cs : CS F} {z : Assignment F} {r : Row F} (h : RowOk cs r) :
    rowVal (stored (cs.withValues z)) r = rowVal z r :=
  Row.rowVal_congr (fun e he => stored_withValues (h.allocated e he))

theorem completion {g : Circ F α} (hu : Uniform g g) {cs cs' : CS F} {out : α}
    (hg : g cs = some (out, cs')) {z : Assignment F} (hz : Satisfies z cs) (wf : Wf cs)
    {S : Assignment F → Prop} {H : Prop}
    (hrun : ∃ o c, g (cs.withValues z) = some (o, c) ∧ Run (cs.withValues z) c S H) (hH : H) :
    ∃ z', AgreeOn cs z z' ∧ Satisfies z' cs' := by
  obtain ⟨o, c, e, r⟩ := hrun
  rcases hu cs _ (sameShape_withValues cs z) with ⟨h1, _⟩ | ⟨a, c1, c2, h1, h2, hs⟩
  · rw [hg] at h1; simp at h1
  · rw [hg] at h1
    rw [e] at h2
    simp only [Option.some.injEq, Prod.mk.injEq] at h1 h2
    obtain ⟨_, rfl⟩ := h1
    obtain ⟨_, rfl⟩ := h2
    have hag : AgreeOn cs z (stored c) := by
      intro w hw
      rw [r.ext.stored_eq (((sameShape_withValues cs z).alloc w).mp hw), stored_withValues hw]
    refine ⟨stored c, hag, ?_⟩
    have : Satisfies (stored c) c := by
      rw [satisfies_iff r.ext]
      refine ⟨⟨r.wf.stored_one, fun k hk => ?_⟩, r.honest hH⟩
      exact (holds_congr hag (wf.rows k hk)).mp (hz.2 k hk)
    exact ⟨this.1, fun k hk => this.2 k (hs.cons ▸ hk)⟩

/-- From the run lemma of a gadget to its correctness statement. -/
theorem implements {g : Circ F α} (hu : Uniform g g) {cs cs' : CS F} {out : α} (wf : Wf cs)
    (hg : g cs = some (out, cs')) {S Pre : Assignment F → Prop}
    (hrun : Run cs cs' S (Pre (stored cs)))
    (hcomp : ∀ z, Satisfies z cs → Pre z →
      ∃ o c S' H, g (cs.withValues z) = some (o, c) ∧ Run (cs.withValues z) c S' H ∧ H) :
    Implements cs cs' S Pre := by
  refine ⟨hrun.ext, hrun.wf, ?_, ?_, ?_⟩
  · intro z hz
    obtain ⟨h1, h2⟩ := (satisfies_iff hrun.ext z).mp hz
    exact ⟨h1, hrun.sound z hz.1 h2⟩
  · intro z hz hp
    obtain ⟨o, c, S', H, e, r, h⟩ := hcomp z hz hp
    exact completion hu hg hz wf ⟨o, c, e, r⟩ h
  · intro hs hp
    rw [satisfies_iff hrun.ext]
    refine ⟨⟨hrun.wf.stored_one, fun k hk => ?_⟩, hrun.honest hp⟩
    exact (holds_congr (fun w hw => (hrun.ext.stored_eq hw).symm) (wf.rows k hk)).mp (hs.2 k hk)

end Circ

end Kogarashi
