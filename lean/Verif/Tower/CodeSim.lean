import Verif.Tower.Code

/-!
# Two runs of the tower and the pairing side by side

If the routines of two base fields take related arguments to related results, so do all functions of `Code`.
-/

namespace Kogarashi.Tower

open Limbs Kogarashi.Field Spec Props Curve

/-- The second base follows the first: related arguments give related results; whenever the first inverts, so does the
second; what the first sees as non-zero is non-zero for the second. -/
structure Sim {A B : Type} (O : Base A) (O' : Base B) (r : A → B → Prop) : Prop where
  zero : r O.zero O'.zero
  one : r O.one O'.one
  add : ∀ {a b c d}, r a b → r c d → r (O.add a c) (O'.add b d)
  sub : ∀ {a b c d}, r a b → r c d → r (O.sub a c) (O'.sub b d)
  neg : ∀ {a b}, r a b → r (O.neg a) (O'.neg b)
  double : ∀ {a b}, r a b → r (O.double a) (O'.double b)
  mul : ∀ {a b c d}, r a b → r c d → r (O.mul a c) (O'.mul b d)
  square : ∀ {a b}, r a b → r (O.square a) (O'.square b)
  invert : ∀ {a b c}, r a b → O.invert a = some c → ∃ d, O'.invert b = some d ∧ r c d
  isZero : ∀ {a b}, r a b → O.isZero a = false → O'.isZero b = false

/-- Coefficientwise. -/
structure R2 {A B : Type} (r : A → B → Prop) (a : Fq2 A) (b : Fq2 B) : Prop where
  c0 : r a.c0 b.c0
  c1 : r a.c1 b.c1
/-- Coefficientwise. -/
structure R6 {A B : Type} (r : A → B → Prop) (a : Fq6 A) (b : Fq6 B) : Prop where
  c0 : R2 r a.c0 b.c0
  c1 : R2 r a.c1 b.c1
  c2 : R2 r a.c2 b.c2
/-- Coefficientwise. -/
structure R12 {A B : Type} (r : A → B → Prop) (a : Fq12 A) (b : Fq12 B) : Prop where
  c0 : R6 r a.c0 b.c0
  c1 : R6 r a.c1 b.c1
/-- Coordinatewise. -/
structure RP3 {A B : Type} (r : A → B → Prop) (a : Proj A) (b : Proj B) : Prop where
  x : r a.x b.x
  y : r a.y b.y
  z : r a.z b.z
/-- Coordinatewise. -/
structure RA {A B : Type} (r : A → B → Prop) (a : Aff A) (b : Aff B) : Prop where
  x : r a.x b.x
  y : r a.y b.y
  inf : a.inf = b.inf
/-- Coefficientwise. -/
structure RC {A B : Type} (r : A → B → Prop) (a : PairingCoeff A) (b : PairingCoeff B) : Prop where
  e0 : R2 r a.e0 b.e0
  e1 : R2 r a.e1 b.e1
  e2 : R2 r a.e2 b.e2
/-- Elementwise. -/
structure RK {A B : Type} (r : A → B → Prop) (k : Consts A) (k' : Consts B) : Prop where
  fq2C1 : ∀ i, r (k.fq2C1 i) (k'.fq2C1 i)
  fq6C1 : ∀ i, R2 r (k.fq6C1 i) (k'.fq6C1 i)
  fq6C2 : ∀ i, R2 r (k.fq6C2 i) (k'.fq6C2 i)
  fq12C1 : ∀ i, R2 r (k.fq12C1 i) (k'.fq12C1 i)
  xiQ : R2 r k.xiQ k'.xiQ
/-- Whenever the first returns, so does the second, with a related result. -/
def RO {A B : Type} (r : A → B → Prop) (o : Option A) (o' : Option B) : Prop :=
  ∀ a, o = some a → ∃ b, o' = some b ∧ r a b
/-- The same with a panic around it. -/
def ROO {A B : Type} (r : A → B → Prop) (o : Option (Option A)) (o' : Option (Option B)) : Prop :=
  ∀ a, o = some (some a) → ∃ b, o' = some (some b) ∧ r a b
theorem ROO.map {A B C D : Type} {r : A → B → Prop} {r' : C → D → Prop} {o : Option (Option A)} {o' : Option (Option B)}
    {f : A → C} {g : B → D} (h : ROO r o o') (hf : ∀ a b, r a b → r' (f a) (g b)) :
    ROO r' (o.map fun x => x.map f) (o'.map fun x => x.map g) := by
  intro c hc
  match o, h, hc with
  | none, _, hc => exact absurd hc (by simp)
  | some none, _, hc => exact absurd hc (by simp)
  | some (some a), h, hc =>
    obtain ⟨b, hb, hab⟩ := h a rfl
    simp only [Option.map_some, Option.some_inj] at hc
    subst hc
    exact ⟨g b, by rw [hb]; rfl, hf a b hab⟩

theorem RO.map {A B C D : Type} {r : A → B → Prop} {r' : C → D → Prop} {o : Option A} {o' : Option B}
    {f : A → C} {g : B → D} (h : ∀ a, o = some a → ∃ b, o' = some b ∧ r a b) (hf : ∀ a b, r a b → r' (f a) (g b)) :
    ROO r' (o.map fun x => some (f x)) (o'.map fun x => some (g x)) := by
  intro c hc
  match o, h, hc with
  | none, _, hc => exact absurd hc (by simp)
  | some a, h, hc =>
    obtain ⟨b, hb, hab⟩ := h a rfl
    simp only [Option.map_some, Option.some_inj] at hc
    subst hc
    exact ⟨g b, by rw [hb]; rfl, hf a b hab⟩

/-- The pairs of `multi_miller_loop`. -/
def RL {A B : Type} (r : A → B → Prop) : List (Aff A × List (PairingCoeff A)) → List (Aff B × List (PairingCoeff B)) → Prop :=
  List.Forall₂ fun p p' => RA r p.1 p'.1 ∧ List.Forall₂ (RC r) p.2 p'.2

theorem RL.empty {A B : Type} {r : A → B → Prop} {l : List (Aff A × List (PairingCoeff A))}
    {l' : List (Aff B × List (PairingCoeff B))} (h : RL r l l') :
    (l.all fun pc => pc.2.isEmpty) = l'.all fun pc => pc.2.isEmpty := by
  induction h with
  | nil => rfl
  | @cons pc pc' _ _ hpc _ ih =>
    rw [List.all_cons, List.all_cons, ih]
    obtain ⟨p, cs⟩ := pc
    obtain ⟨p', cs'⟩ := pc'
    obtain ⟨-, hc⟩ := hpc
    dsimp only at hc ⊢
    cases hc <;> rfl

section
variable {A B : Type} {O : Base A} {O' : Base B} {r : A → B → Prop} (S : Sim O O' r)
include S

theorem Sim.zero2 : R2 r O.zero2 O'.zero2 := ⟨S.zero, S.zero⟩
theorem Sim.one2 : R2 r O.one2 O'.one2 := ⟨S.one, S.zero⟩
theorem Sim.add2 {a b c d} (h : R2 r a b) (g : R2 r c d) : R2 r (O.add2 a c) (O'.add2 b d) :=
  ⟨S.add h.c0 g.c0, S.add h.c1 g.c1⟩
theorem Sim.sub2 {a b c d} (h : R2 r a b) (g : R2 r c d) : R2 r (O.sub2 a c) (O'.sub2 b d) :=
  ⟨S.sub h.c0 g.c0, S.sub h.c1 g.c1⟩
theorem Sim.neg2 {a b} (h : R2 r a b) : R2 r (O.neg2 a) (O'.neg2 b) := ⟨S.neg h.c0, S.neg h.c1⟩
theorem Sim.mul2 {a b c d} (h : R2 r a b) (g : R2 r c d) : R2 r (O.mul2 a c) (O'.mul2 b d) :=
  ⟨S.sub (S.mul h.c0 g.c0) (S.mul h.c1 g.c1), S.add (S.mul h.c0 g.c1) (S.mul h.c1 g.c0)⟩
theorem Sim.double2 {a b} (h : R2 r a b) : R2 r (O.double2 a) (O'.double2 b) := ⟨S.double h.c0, S.double h.c1⟩
theorem Sim.square2 {a b} (h : R2 r a b) : R2 r (O.square2 a) (O'.square2 b) :=
  ⟨S.sub (S.square h.c0) (S.square h.c1), S.double (S.mul h.c0 h.c1)⟩
theorem Sim.nonres2 {a b} (h : R2 r a b) : R2 r (O.nonres2 a) (O'.nonres2 b) := by
  have h3 := S.double2 (S.double2 (S.double2 h))
  exact ⟨S.add h3.c0 (S.sub h.c0 h.c1), S.add h3.c1 (S.add h.c0 h.c1)⟩
theorem Sim.invert2 {a b} (h : R2 r a b) : ROO (R2 r) (O.invert2 a) (O'.invert2 b) := by
  intro x hx
  unfold Base.invert2 at hx ⊢
  by_cases hz : O.isZero2 a = true
  · rw [if_pos hz] at hx
    simp at hx
  · have hz' : ¬ O'.isZero2 b = true := by
      intro e
      unfold Base.isZero2 at e hz
      rw [Bool.and_eq_true] at e hz
      apply hz
      constructor
      · by_contra h'
        rw [S.isZero h.c0 (Bool.eq_false_iff.mpr h')] at e
        exact absurd e.1 (by simp)
      · by_contra h'
        rw [S.isZero h.c1 (Bool.eq_false_iff.mpr h')] at e
        exact absurd e.2 (by simp)
    rw [if_neg hz] at hx
    rw [if_neg hz']
    exact RO.map (fun c hc => S.invert (S.add (S.square h.c0) (S.square h.c1)) hc)
      (fun t u htu => R2.mk (S.mul htu h.c0) (S.mul htu (S.neg h.c1))) x hx

/-- Closes goals about compositions of routines on `Fq2`. -/
local macro "sim2" : tactic => `(tactic| repeat' first
  | assumption | apply Sim.add2 S | apply Sim.sub2 S | apply Sim.mul2 S | apply Sim.neg2 S | apply Sim.double2 S
  | apply Sim.square2 S | apply Sim.nonres2 S)

theorem Sim.zero6 : R6 r O.zero6 O'.zero6 := ⟨S.zero2, S.zero2, S.zero2⟩
theorem Sim.one6 : R6 r O.one6 O'.one6 := ⟨S.one2, S.zero2, S.zero2⟩
theorem Sim.add6 {a b c d} (h : R6 r a b) (g : R6 r c d) : R6 r (O.add6 a c) (O'.add6 b d) :=
  ⟨S.add2 h.c0 g.c0, S.add2 h.c1 g.c1, S.add2 h.c2 g.c2⟩
theorem Sim.sub6 {a b c d} (h : R6 r a b) (g : R6 r c d) : R6 r (O.sub6 a c) (O'.sub6 b d) :=
  ⟨S.sub2 h.c0 g.c0, S.sub2 h.c1 g.c1, S.sub2 h.c2 g.c2⟩
theorem Sim.neg6 {a b} (h : R6 r a b) : R6 r (O.neg6 a) (O'.neg6 b) := ⟨S.neg2 h.c0, S.neg2 h.c1, S.neg2 h.c2⟩
theorem Sim.double6 {a b} (h : R6 r a b) : R6 r (O.double6 a) (O'.double6 b) :=
  ⟨S.double2 h.c0, S.double2 h.c1, S.double2 h.c2⟩
theorem Sim.nonres6 {a b} (h : R6 r a b) : R6 r (O.nonres6 a) (O'.nonres6 b) := ⟨S.nonres2 h.c2, h.c0, h.c1⟩
theorem Sim.mul6 {a b c d} (h : R6 r a b) (g : R6 r c d) : R6 r (O.mul6 a c) (O'.mul6 b d) := by
  obtain ⟨h0, h1, h2⟩ := h
  obtain ⟨g0, g1, g2⟩ := g
  unfold Base.mul6
  constructor <;> dsimp only <;> sim2
theorem Sim.square6 {a b} (h : R6 r a b) : R6 r (O.square6 a) (O'.square6 b) := by
  obtain ⟨h0, h1, h2⟩ := h
  unfold Base.square6
  constructor <;> dsimp only <;> sim2
theorem Sim.mulBy01 {a b c d e f} (h : R6 r a b) (g : R2 r c d) (i : R2 r e f) :
    R6 r (O.mulBy01 a c e) (O'.mulBy01 b d f) := by
  obtain ⟨h0, h1, h2⟩ := h
  unfold Base.mulBy01
  constructor <;> dsimp only <;> sim2
theorem Sim.invert6 {a b} (h : R6 r a b) : ROO (R6 r) (O.invert6 a) (O'.invert6 b) := by
  obtain ⟨h0, h1, h2⟩ := h
  have e0 := S.sub2 (S.square2 h0) (S.nonres2 (S.mul2 h1 h2))
  have e1 := S.sub2 (S.nonres2 (S.square2 h2)) (S.mul2 h0 h1)
  have e2 := S.sub2 (S.square2 h1) (S.mul2 h0 h2)
  have e3 := S.invert2 (S.add2 (S.nonres2 (S.add2 (S.mul2 h1 e2) (S.mul2 h2 e1))) (S.mul2 h0 e0))
  exact ROO.map e3 fun t u htu => ⟨S.mul2 htu e0, S.mul2 htu e1, S.mul2 htu e2⟩

/-- Closes goals about compositions of routines on `Fq6`. -/
local macro "sim6" : tactic => `(tactic| repeat' first
  | assumption | apply Sim.add6 S | apply Sim.sub6 S | apply Sim.mul6 S | apply Sim.neg6 S | apply Sim.double6 S
  | apply Sim.square6 S | apply Sim.nonres6 S)

theorem Sim.one12 : R12 r O.one12 O'.one12 := ⟨S.one6, S.zero6⟩
theorem Sim.mul12 {a b c d} (h : R12 r a b) (g : R12 r c d) : R12 r (O.mul12 a c) (O'.mul12 b d) := by
  obtain ⟨h0, h1⟩ := h
  obtain ⟨g0, g1⟩ := g
  unfold Base.mul12
  constructor <;> dsimp only <;> sim6
theorem Sim.square12 {a b} (h : R12 r a b) : R12 r (O.square12 a) (O'.square12 b) := by
  obtain ⟨h0, h1⟩ := h
  unfold Base.square12
  constructor <;> dsimp only <;> sim6
theorem Sim.conjugate12 {a b} (h : R12 r a b) : R12 r (O.conjugate12 a) (O'.conjugate12 b) := ⟨h.c0, S.neg6 h.c1⟩
theorem Sim.mulBy034 {a b c d e f g i} (h : R12 r a b) (h0 : R2 r c d) (h3 : R2 r e f) (h4 : R2 r g i) :
    R12 r (O.mulBy034 a c e g) (O'.mulBy034 b d f i) := by
  have t0 : R6 r ⟨O.mul2 a.c0.c0 c, O.mul2 a.c0.c1 c, O.mul2 a.c0.c2 c⟩
      ⟨O'.mul2 b.c0.c0 d, O'.mul2 b.c0.c1 d, O'.mul2 b.c0.c2 d⟩ :=
    ⟨S.mul2 h.c0.c0 h0, S.mul2 h.c0.c1 h0, S.mul2 h.c0.c2 h0⟩
  have t1 := S.mulBy01 h.c1 h3 h4
  have t2 := S.mulBy01 (S.add6 h.c0 h.c1) (S.add2 h0 h3) h4
  exact ⟨S.add6 t0 (S.nonres6 t1), S.sub6 (S.sub6 t2 t0) t1⟩
theorem Sim.invert12 {a b} (h : R12 r a b) : ROO (R12 r) (O.invert12 a) (O'.invert12 b) := by
  have e := S.invert6 (S.sub6 (S.square6 h.c0) (S.nonres6 (S.square6 h.c1)))
  exact ROO.map e fun t u htu => ⟨S.mul6 h.c0 htu, S.mul6 h.c1 (S.neg6 htu)⟩

theorem Sim.doubleEval {a b} (h : RP3 (R2 r) a b) :
    RP3 (R2 r) (O.doubleEval a).1 (O'.doubleEval b).1 ∧ RC r (O.doubleEval a).2 (O'.doubleEval b).2 := by
  obtain ⟨hx, hy, hz⟩ := h
  unfold Base.doubleEval
  refine ⟨⟨?_, ?_, ?_⟩, ⟨?_, ?_, ?_⟩⟩ <;> dsimp only <;> sim2
theorem Sim.addEval {a b c d} (h : RP3 (R2 r) a b) (g : RA (R2 r) c d) :
    RP3 (R2 r) (O.addEval a c).1 (O'.addEval b d).1 ∧ RC r (O.addEval a c).2 (O'.addEval b d).2 := by
  obtain ⟨hx, hy, hz⟩ := h
  obtain ⟨gx, gy, -⟩ := g
  unfold Base.addEval
  refine ⟨⟨?_, ?_, ?_⟩, ⟨?_, ?_, ?_⟩⟩ <;> dsimp only <;> sim2
theorem Sim.negAff {a b} (h : RA (R2 r) a b) : RA (R2 r) (O.negAff a) (O'.negAff b) := ⟨h.x, S.neg2 h.y, h.inf⟩

theorem Sim.prepareStep {g g' st st'} (hg : RA (R2 r) g g') (h1 : RP3 (R2 r) st.1 st'.1)
    (h2 : List.Forall₂ (RC r) st.2 st'.2) (d : Int) :
    RP3 (R2 r) (O.prepareStep g st d).1 (O'.prepareStep g' st' d).1 ∧
      List.Forall₂ (RC r) (O.prepareStep g st d).2 (O'.prepareStep g' st' d).2 := by
  obtain ⟨d1, d2⟩ := S.doubleEval h1
  have hc := List.rel_append h2 (.cons d2 .nil)
  unfold Base.prepareStep
  dsimp only
  split
  · obtain ⟨e1, e2⟩ := S.addEval d1 hg
    exact ⟨e1, List.rel_append hc (.cons e2 .nil)⟩
  · split
    · obtain ⟨e1, e2⟩ := S.addEval d1 (S.negAff hg)
      exact ⟨e1, List.rel_append hc (.cons e2 .nil)⟩
    · exact ⟨d1, hc⟩

theorem Sim.prepareFold {g g'} (hg : RA (R2 r) g g') (ds : List Int) {st st'} (h1 : RP3 (R2 r) st.1 st'.1)
    (h2 : List.Forall₂ (RC r) st.2 st'.2) :
    RP3 (R2 r) (ds.foldl (O.prepareStep g) st).1 (ds.foldl (O'.prepareStep g') st').1 ∧
      List.Forall₂ (RC r) (ds.foldl (O.prepareStep g) st).2 (ds.foldl (O'.prepareStep g') st').2 := by
  induction ds generalizing st st' with
  | nil => exact ⟨h1, h2⟩
  | cons d ds ih =>
    obtain ⟨k1, k2⟩ := S.prepareStep hg h1 h2 d
    exact ih k1 k2

theorem Sim.untwist {a b c d p q} (h : R12 r a b) (g : RC r c d) (hp : RA r p q) :
    R12 r (O.untwist a c p) (O'.untwist b d q) :=
  S.mulBy034 h ⟨S.mul g.e0.c0 hp.y, S.mul g.e0.c1 hp.y⟩ ⟨S.mul g.e1.c0 hp.x, S.mul g.e1.c1 hp.x⟩ g.e2

theorem Sim.pass {a b l l'} (h : R12 r a b) (hl : RL r l l') :
    RO (fun x y => R12 r x.1 y.1 ∧ RL r x.2 y.2) (O.pass a l) (O'.pass b l') := by
  induction hl generalizing a b with
  | nil =>
    intro x hx
    rw [Base.pass, Option.some_inj] at hx
    subst hx
    exact ⟨_, rfl, h, .nil⟩
  | @cons pc pc' l l' hpc hl ih =>
    obtain ⟨p, cs⟩ := pc
    obtain ⟨p', cs'⟩ := pc'
    obtain ⟨hp, hcs⟩ := hpc
    cases hcs with
    | nil => intro x hx; exact absurd hx (by simp [Base.pass])
    | @cons c c' cs cs' hc hcs =>
      intro x hx
      rw [Base.pass] at hx ⊢
      obtain ⟨⟨a1, l1⟩, e1, e2⟩ := Option.bind_eq_some_iff.mp hx
      obtain ⟨⟨b1, m1⟩, f1, f2, f3⟩ := ih (S.untwist h hc hp) _ e1
      simp only [Option.some_inj] at e2
      subst e2
      refine ⟨(b1, (p', cs') :: m1), ?_, f2, List.Forall₂.cons ⟨hp, hcs⟩ f3⟩
      dsimp only at f1
      rw [f1]
      rfl

theorem Sim.millerMain {a b l l'} (first : Bool) (ds : List Int) (h : R12 r a b) (hl : RL r l l') :
    RO (fun x y => R12 r x.1 y.1 ∧ RL r x.2 y.2) (O.millerMain first ds a l) (O'.millerMain first ds b l') := by
  induction ds generalizing first a b l l' with
  | nil =>
    intro x hx
    rw [Base.millerMain, Option.some_inj] at hx
    subst hx
    exact ⟨_, rfl, h, hl⟩
  | cons d ds ih =>
    have h1 : R12 r (if first then a else O.square12 a) (if first then b else O'.square12 b) := by
      cases first
      · exact S.square12 h
      · exact h
    intro x hx
    rw [Base.millerMain] at hx ⊢
    obtain ⟨⟨a1, l1⟩, e1, e2⟩ := Option.bind_eq_some_iff.mp hx
    obtain ⟨⟨b1, m1⟩, f1, f2, f3⟩ := S.pass h1 hl _ e1
    dsimp only at f1 e2 ⊢
    rw [f1, Option.bind_eq_bind, Option.bind_some]
    dsimp only
    split at e2
    · rename_i hd
      rw [if_pos hd]
      obtain ⟨⟨a2, l2⟩, e3, e4⟩ := Option.bind_eq_some_iff.mp e2
      obtain ⟨⟨b2, m2⟩, g1, g2, g3⟩ := S.pass f2 f3 _ e3
      rw [g1, Option.bind_some]
      exact ih false g2 g3 x e4
    · rename_i hd
      rw [if_neg hd]
      split at e2
      · rename_i hd'
        rw [if_pos hd']
        obtain ⟨⟨a2, l2⟩, e3, e4⟩ := Option.bind_eq_some_iff.mp e2
        obtain ⟨⟨b2, m2⟩, g1, g2, g3⟩ := S.pass f2 f3 _ e3
        rw [g1, Option.bind_some]
        exact ih false g2 g3 x e4
      · rename_i hd'
        rw [if_neg hd']
        exact ih false f2 f3 x e2

/-- The prepared points. -/
structure RG {A B : Type} (r : A → B → Prop) (a : G2Pairing A) (b : G2Pairing B) : Prop where
  coeffs : List.Forall₂ (RC r) a.coeffs b.coeffs
  inf : a.isInfinity = b.isInfinity

theorem Sim.multiMillerLoop {l : List (Aff A × G2Pairing A)} {l' : List (Aff B × G2Pairing B)}
    (h : List.Forall₂ (fun p q => RA r p.1 q.1 ∧ RG r p.2 q.2) l l') :
    RO (R12 r) (O.multiMillerLoop l) (O'.multiMillerLoop l') := by
  have h0 : RL r ((l.filter fun pq => !pq.1.inf && !pq.2.isInfinity).map fun pq => (pq.1, pq.2.coeffs))
      ((l'.filter fun pq => !pq.1.inf && !pq.2.isInfinity).map fun pq => (pq.1, pq.2.coeffs)) := by
    induction h with
    | nil => exact .nil
    | @cons p q l l' hpq _ ih =>
      have e : (!p.1.inf && !p.2.isInfinity) = (!q.1.inf && !q.2.isInfinity) := by
        rw [hpq.1.inf, hpq.2.inf]
      rw [List.filter_cons, List.filter_cons, e]
      split
      · exact .cons ⟨hpq.1, hpq.2.coeffs⟩ ih
      · exact ih
  intro x hx
  unfold Base.multiMillerLoop at hx ⊢
  dsimp only at hx ⊢
  obtain ⟨⟨a1, l1⟩, e1, hx⟩ := Option.bind_eq_some_iff.mp hx
  obtain ⟨⟨b1, m1⟩, f1, f2, f3⟩ := S.millerMain true loopDigits S.one12 h0 _ e1
  obtain ⟨⟨a2, l2⟩, e2, hx⟩ := Option.bind_eq_some_iff.mp hx
  obtain ⟨⟨b2, m2⟩, g1, g2, g3⟩ := S.pass f2 f3 _ e2
  obtain ⟨⟨a3, l3⟩, e3, hx⟩ := Option.bind_eq_some_iff.mp hx
  obtain ⟨⟨b3, m3⟩, i1, i2, i3⟩ := S.pass g2 g3 _ e3
  rw [f1, Option.bind_eq_bind, Option.bind_some]
  dsimp only at g1 i1 hx ⊢
  rw [g1, Option.bind_some]
  dsimp only
  rw [i1, Option.bind_some]
  dsimp only
  rw [← RL.empty i3]
  split at hx
  · rename_i hh
    rw [if_pos hh]
    rw [Option.some_inj] at hx
    subst hx
    exact ⟨_, rfl, i2⟩
  · exact absurd hx (by simp)

theorem Sim.fp4Square {a b c d} (h : R2 r a b) (g : R2 r c d) :
    R2 r (O.fp4Square a c).1 (O'.fp4Square b d).1 ∧ R2 r (O.fp4Square a c).2 (O'.fp4Square b d).2 := by
  unfold Base.fp4Square
  constructor <;> dsimp only <;> sim2

theorem Sim.cyclotomicSquare {a b} (h : R12 r a b) : R12 r (O.cyclotomicSquare a) (O'.cyclotomicSquare b) := by
  obtain ⟨⟨h0, h4, h3⟩, ⟨h2, h1, h5⟩⟩ := h
  obtain ⟨s1, s2⟩ := S.fp4Square h0 h1
  obtain ⟨t1, t2⟩ := S.fp4Square h2 h3
  obtain ⟨u1, u2⟩ := S.fp4Square h4 h5
  unfold Base.cyclotomicSquare
  refine ⟨⟨?_, ?_, ?_⟩, ⟨?_, ?_, ?_⟩⟩ <;> dsimp only <;> sim2

theorem Sim.cyclotomicExp {a b} (h : R12 r a b) : R12 r (O.cyclotomicExp a) (O'.cyclotomicExp b) := by
  have hf : ∀ (l : List Bool) {x y}, R12 r x y → R12 r (l.foldl (O.cyclotomicStep a) x) (l.foldl (O'.cyclotomicStep b) y) := by
    intro l
    induction l with
    | nil => intro x y hxy; exact hxy
    | cons c l ih =>
      intro x y hxy
      rw [List.foldl_cons, List.foldl_cons]
      apply ih
      cases c
      · exact S.cyclotomicSquare hxy
      · exact S.mul12 (S.cyclotomicSquare hxy) h
  exact hf _ S.one12

variable {k : Consts A} {k' : Consts B} (K : RK r k k')
include K

theorem Sim.frob2 {a b} (h : R2 r a b) (n : Nat) : R2 r (O.frob2 k a n) (O'.frob2 k' b n) :=
  ⟨h.c0, S.mul h.c1 (K.fq2C1 _)⟩
theorem Sim.frob6 {a b} (h : R6 r a b) (n : Nat) : R6 r (O.frob6 k a n) (O'.frob6 k' b n) :=
  ⟨S.frob2 K h.c0 n, S.mul2 (S.frob2 K h.c1 n) (K.fq6C1 _), S.mul2 (S.frob2 K h.c2 n) (K.fq6C2 _)⟩
theorem Sim.frob12 {a b} (h : R12 r a b) (n : Nat) : R12 r (O.frob12 k a n) (O'.frob12 k' b n) := by
  have h1 := S.frob6 K h.c1 n
  exact ⟨S.frob6 K h.c0 n, S.mul2 h1.c0 (K.fq12C1 _), S.mul2 h1.c1 (K.fq12C1 _), S.mul2 h1.c2 (K.fq12C1 _)⟩

theorem Sim.finalExpTail {a b c d} (h : R12 r a b) (g : R12 r c d) :
    R12 r (O.finalExpTail k a c) (O'.finalExpTail k' b d) := by
  have f2 := S.mul12 g h
  have hr := S.mul12 (S.frob12 K f2 2) f2
  have fp := S.frob12 K hr 1
  have fp2 := S.frob12 K hr 2
  have fp3 := S.frob12 K fp2 1
  have fu := S.cyclotomicExp hr
  have fu2 := S.cyclotomicExp fu
  have fu3 := S.cyclotomicExp fu2
  have y3 := S.conjugate12 (S.frob12 K fu 1)
  have fu2p := S.frob12 K fu2 1
  have fu3p := S.frob12 K fu3 1
  have y2 := S.frob12 K fu2 2
  have y0 := S.mul12 (S.mul12 fp fp2) fp3
  have y1 := S.conjugate12 hr
  have y5 := S.conjugate12 fu2
  have y4 := S.conjugate12 (S.mul12 fu fu2p)
  have y6 := S.mul12 (S.mul12 (S.cyclotomicSquare (S.conjugate12 (S.mul12 fu3 fu3p))) y4) y5
  have t1 := S.mul12 (S.mul12 y3 y5) y6
  have y6' := S.mul12 y6 y2
  have t1' := S.cyclotomicSquare (S.mul12 (S.cyclotomicSquare t1) y6')
  have t0 := S.mul12 t1' y1
  have t1'' := S.mul12 t1' y0
  exact S.mul12 (S.cyclotomicSquare t0) t1''

theorem Sim.finalExp {a b} (h : R12 r a b) : RO (R12 r) (O.finalExp k a) (O'.finalExp k' b) := by
  intro x hx
  unfold Base.finalExp at hx ⊢
  have e := S.invert12 h
  match ho : O.invert12 a with
  | none => rw [ho] at hx; exact absurd hx (by simp)
  | some none => rw [ho] at hx; exact absurd hx (by simp)
  | some (some f) =>
    obtain ⟨f', e1, e2⟩ := e f ho
    rw [ho] at hx
    rw [e1]
    dsimp only at hx ⊢
    rw [Option.some_inj] at hx
    subst hx
    exact ⟨_, rfl, S.finalExpTail K (S.conjugate12 h) e2⟩

theorem Sim.prepare {a b} (h : RA (R2 r) a b) : RG r (O.prepare k a) (O'.prepare k' b) := by
  unfold Base.prepare
  rw [h.inf]
  split
  · exact ⟨.nil, rfl⟩
  · have p1 : RA (R2 r) (O.frobPoint k a) (O'.frobPoint k' b) :=
      ⟨S.mul2 ⟨h.x.c0, S.neg h.x.c1⟩ (K.fq6C1 1), S.mul2 ⟨h.y.c0, S.neg h.y.c1⟩ K.xiQ, h.inf⟩
    have p2 : RA (R2 r) (O.minusFrob2Point k a) (O'.minusFrob2Point k' b) :=
      ⟨S.mul2 h.x (K.fq6C1 2), h.y, h.inf⟩
    obtain ⟨s1, s2⟩ := S.prepareFold h loopDigits (st := (⟨a.x, a.y, O.one2⟩, [])) (st' := (⟨b.x, b.y, O'.one2⟩, []))
      ⟨h.x, h.y, S.one2⟩ .nil
    obtain ⟨u1, u2⟩ := S.addEval s1 p1
    obtain ⟨v1, v2⟩ := S.addEval u1 p2
    exact ⟨List.rel_append s2 (.cons u2 (.cons v2 .nil)), rfl⟩

/-- Whenever the first run of the pairing returns, so does the second, with a related result. -/
theorem Sim.pairing {p p' q q'} (hp : RA r p p') (hq : RA (R2 r) q q') :
    RO (R12 r) (O.pairing k p q) (O'.pairing k' p' q') := by
  intro x hx
  unfold Base.pairing at hx ⊢
  obtain ⟨f, e1, e2⟩ := Option.bind_eq_some_iff.mp hx
  obtain ⟨g, g1, g2⟩ := S.multiMillerLoop (l := [(p, O.prepare k q)]) (l' := [(p', O'.prepare k' q')])
    (List.Forall₂.cons ⟨hp, S.prepare K hq⟩ .nil) f e1
  rw [g1]
  exact S.finalExp K g2 x e2

end

end Kogarashi.Tower
