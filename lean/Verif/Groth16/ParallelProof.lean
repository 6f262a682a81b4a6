import Verif.Groth16.Parallel
import Mathlib.Data.List.Basic
import Mathlib.Tactic.Ring
import Mathlib.Order.WellFounded

/-!
# Lemmas: programs with disjoint parts have one outcome
-/

namespace Kogarashi.Spec

variable {V : Type}

/-- Running the left part of every join first. (Auxiliary.) -/
def eval : Prog V → List V → List V
  | .done, m => m
  | .panic, m => m
  | .rd i k, m => match m[i]? with
    | some v => eval (k v) m
    | none => m
  | .wr i v k, m => eval k (m.set i v)
  | .join p q k, m => eval k (eval q (eval p m))

/-- All accesses are in `S`, those of parts that run at the same time in disjoint sets, and nothing panics as long as cell `i` holds
values in `T i`, which is kept up. (Auxiliary.) -/
def Within (T : Nat → V → Prop) : (Nat → Prop) → Prog V → Prop
  | _, .done => True
  | _, .panic => False
  | S, .rd i k => S i ∧ ∀ v, T i v → Within T S (k v)
  | S, .wr i v k => S i ∧ T i v ∧ Within T S k
  | S, .join p q k => (∃ S1 S2 : Nat → Prop, (∀ i, S1 i → ¬S2 i) ∧ (∀ i, S1 i → S i) ∧ (∀ i, S2 i → S i) ∧ Within T S1 p ∧ Within T S2 q) ∧
      Within T S k

/-- Every cell holds a value of its kind. (Auxiliary.) -/
def Typed (T : Nat → V → Prop) (m : List V) : Prop := ∀ i v, m[i]? = some v → T i v

variable {T : Nat → V → Prop}

theorem Typed.set {m : List V} (h : Typed T m) {i : Nat} {v : V} (hv : T i v) : Typed T (m.set i v) := by
  intro j w hw
  rw [List.getElem?_set] at hw
  split at hw
  · rename_i e
    subst e
    split at hw
    · cases hw; exact hv
    · cases hw
  · exact h j w hw

theorem Within.mono : ∀ {p : Prog V} {S S' : Nat → Prop}, (∀ i, S i → S' i) → Within T S p → Within T S' p
  | .done, _, _, _, _ => trivial
  | .panic, _, _, _, h => h
  | .rd _ _, _, _, hST, h => ⟨hST _ h.1, fun v hv => (h.2 v hv).mono hST⟩
  | .wr _ _ _, _, _, hST, h => ⟨hST _ h.1, h.2.1, Within.mono hST h.2.2⟩
  | .join _ _ _, _, _, hST, ⟨⟨S1, S2, hd, h1, h2, hp, hq⟩, hk⟩ =>
    ⟨⟨S1, S2, hd, fun i hi => hST i (h1 i hi), fun i hi => hST i (h2 i hi), hp, hq⟩, Within.mono hST hk⟩

theorem eval_typed : ∀ {p : Prog V} {S : Nat → Prop} {m : List V}, Within T S p → Typed T m → Typed T (eval p m)
  | .done, _, _, _, hm => hm
  | .panic, _, _, h, _ => h.elim
  | .rd j k, S, m, h, hm => by
    unfold eval
    split
    · rename_i hv
      exact eval_typed (h.2 _ (hm _ _ hv)) hm
    · exact hm
  | .wr j v k, S, m, h, hm => by unfold eval; exact eval_typed h.2.2 (hm.set h.2.1)
  | .join p q k, S, m, ⟨⟨S1, S2, _, h1, h2, hp, hq⟩, hk⟩, hm => by
    unfold eval
    exact eval_typed hk (eval_typed hq (eval_typed hp hm))

/-- Cells outside `S` keep their values. -/
theorem eval_frame : ∀ {p : Prog V} {S : Nat → Prop} {m : List V} {i : Nat}, Within T S p → Typed T m → ¬S i → (eval p m)[i]? = m[i]?
  | .done, _, _, _, _, _, _ => rfl
  | .panic, _, _, _, h, _, _ => h.elim
  | .rd j k, S, m, i, h, hm, hi => by
    unfold eval
    split
    · rename_i hv
      exact eval_frame (h.2 _ (hm _ _ hv)) hm hi
    · rfl
  | .wr j v k, S, m, i, h, hm, hi => by
    have hne : j ≠ i := fun e => hi (e ▸ h.1)
    unfold eval
    rw [eval_frame h.2.2 (hm.set h.2.1) hi, List.getElem?_set_ne hne]
  | .join p q k, S, m, i, ⟨⟨S1, S2, _, h1, h2, hp, hq⟩, hk⟩, hm, hi => by
    unfold eval
    have t1 := eval_typed hp hm
    rw [eval_frame hk (eval_typed hq t1) hi, eval_frame hq t1 (fun h => hi (h2 i h)), eval_frame hp hm (fun h => hi (h1 i h))]

theorem eval_length : ∀ {p : Prog V} {m : List V}, (eval p m).length = m.length
  | .done, _ => rfl
  | .panic, _ => rfl
  | .rd j k, m => by
    unfold eval
    split
    · exact eval_length
    · rfl
  | .wr j v k, m => by unfold eval; rw [eval_length, List.length_set]
  | .join p q k, m => by unfold eval; rw [eval_length, eval_length, eval_length]

/-- Writing outside `S` commutes with the program. -/
theorem eval_set : ∀ {p : Prog V} {S : Nat → Prop} {m : List V} {i : Nat} {v : V}, Within T S p → Typed T m → ¬S i →
    eval p (m.set i v) = (eval p m).set i v
  | .done, _, _, _, _, _, _, _ => rfl
  | .panic, _, _, _, _, h, _, _ => h.elim
  | .rd j k, S, m, i, v, h, hm, hi => by
    have hne : j ≠ i := fun e => hi (e ▸ h.1)
    unfold eval
    rw [List.getElem?_set_ne hne.symm]
    split
    · rename_i hv
      exact eval_set (h.2 _ (hm _ _ hv)) hm hi
    · rfl
  | .wr j w k, S, m, i, v, h, hm, hi => by
    have hne : j ≠ i := fun e => hi (e ▸ h.1)
    unfold eval
    rw [List.set_comm _ _ hne.symm, eval_set h.2.2 (hm.set h.2.1) hi]
  | .join p q k, S, m, i, v, ⟨⟨S1, S2, _, h1, h2, hp, hq⟩, hk⟩, hm, hi => by
    unfold eval
    have t1 := eval_typed hp hm
    rw [eval_set hp hm (fun h => hi (h1 i h)), eval_set hq t1 (fun h => hi (h2 i h)), eval_set hk (eval_typed hq t1) hi]

/-- A step keeps the program within `S`. -/
theorem step_within {c c' : Prog V × List V} (h : Step c c') : ∀ {S : Nat → Prop}, (∀ i, S i → i < c.2.length) → Typed T c.2 →
    Within T S c.1 → Within T S c'.1 ∧ c'.2.length = c.2.length ∧ Typed T c'.2 := by
  induction h with
  | rd hv => intro S _ hm h; exact ⟨h.2 _ (hm _ _ hv), rfl, hm⟩
  | rdOut hm => intro S hS _ h; exact absurd (hS _ h.1) (not_lt.mpr hm)
  | wr _ => intro S _ hm h; exact ⟨h.2.2, List.length_set, hm.set h.2.1⟩
  | wrOut hm => intro S hS _ h; exact absurd (hS _ h.1) (not_lt.mpr hm)
  | left _ ih =>
    rintro S hS hm ⟨⟨S1, S2, hd, h1, h2, hp, hq⟩, hk⟩
    have := ih (fun i hi => hS i (h1 i hi)) hm hp
    exact ⟨⟨⟨S1, S2, hd, h1, h2, this.1, hq⟩, hk⟩, this.2⟩
  | right _ ih =>
    rintro S hS hm ⟨⟨S1, S2, hd, h1, h2, hp, hq⟩, hk⟩
    have := ih (fun i hi => hS i (h2 i hi)) hm hq
    exact ⟨⟨⟨S1, S2, hd, h1, h2, hp, this.1⟩, hk⟩, this.2⟩
  | join => intro S _ hm h; exact ⟨h.2, rfl, hm⟩

/-- The same step on another array that agrees on `S`. -/
theorem step_agree {c c' : Prog V × List V} (h : Step c c') : ∀ {S : Nat → Prop} {m1 : List V}, (∀ i, S i → i < c.2.length) →
    Within T S c.1 → (∀ i, S i → m1[i]? = c.2[i]?) → m1.length = c.2.length →
    ∃ m1', Step (c.1, m1) (c'.1, m1') ∧ ((c'.2 = c.2 ∧ m1' = m1) ∨ ∃ i v, S i ∧ c'.2 = c.2.set i v ∧ m1' = m1.set i v) := by
  induction h with
  | rd hv => intro S m1 _ h ha _; exact ⟨m1, .rd ((ha _ h.1).trans hv), .inl ⟨rfl, rfl⟩⟩
  | rdOut hm => intro S m1 hS h _ _; exact absurd (hS _ h.1) (not_lt.mpr hm)
  | wr hi => intro S m1 _ h _ hl; exact ⟨_, .wr (by rw [hl]; exact hi), .inr ⟨_, _, h.1, rfl, rfl⟩⟩
  | wrOut hm => intro S m1 hS h _ _; exact absurd (hS _ h.1) (not_lt.mpr hm)
  | left _ ih =>
    rintro S m1 hS ⟨⟨S1, S2, hd, h1, h2, hp, hq⟩, hk⟩ ha hl
    obtain ⟨m1', hs, hc⟩ := ih (fun i hi => hS i (h1 i hi)) hp (fun i hi => ha i (h1 i hi)) hl
    refine ⟨m1', .left hs, hc.imp id ?_⟩
    rintro ⟨i, v, hi, e⟩
    exact ⟨i, v, h1 i hi, e⟩
  | right _ ih =>
    rintro S m1 hS ⟨⟨S1, S2, hd, h1, h2, hp, hq⟩, hk⟩ ha hl
    obtain ⟨m1', hs, hc⟩ := ih (fun i hi => hS i (h2 i hi)) hq (fun i hi => ha i (h2 i hi)) hl
    refine ⟨m1', .right hs, hc.imp id ?_⟩
    rintro ⟨i, v, hi, e⟩
    exact ⟨i, v, h2 i hi, e⟩
  | join => intro S m1 _ _ _ _; exact ⟨m1, .join, .inl ⟨rfl, rfl⟩⟩

/-- A step does not change the outcome. -/
theorem step_eval : ∀ (p : Prog V) {p' : Prog V} {m m' : List V}, Step (p, m) (p', m') → ∀ {S : Nat → Prop},
    (∀ i, S i → i < m.length) → Typed T m → Within T S p → eval p' m' = eval p m
  | .done, _, _, _, h, _, _, _, _ => by cases h
  | .panic, _, _, _, h, _, _, _, _ => by cases h
  | .rd i k, _, m, _, h, S, hS, _, hw => by
    cases h with
    | rd hv => conv_rhs => unfold eval
               rw [hv]
    | rdOut hm => exact absurd (hS _ hw.1) (not_lt.mpr hm)
  | .wr i v k, _, m, _, h, S, hS, _, hw => by
    cases h with
    | wr hv => conv_rhs => unfold eval
    | wrOut hm => exact absurd (hS _ hw.1) (not_lt.mpr hm)
  | .join p q k, _, m, _, h, S, hS, hm, ⟨⟨S1, S2, hd, h1, h2, hp, hq⟩, hk⟩ => by
    cases h with
    | left h =>
      have := step_eval p h (fun i hi => hS i (h1 i hi)) hm hp
      conv_lhs => unfold eval
      conv_rhs => unfold eval
      rw [this]
    | right h =>
      have hag : ∀ i, S2 i → (eval p m)[i]? = m[i]? := fun i hi => eval_frame hp hm (fun h' => hd i h' hi)
      obtain ⟨m1', hs, hc⟩ := step_agree h (fun i hi => hS i (h2 i hi)) hq hag eval_length
      have e := step_eval q hs (fun i hi => by rw [eval_length]; exact hS i (h2 i hi)) (eval_typed hp hm) hq
      conv_lhs => unfold eval
      conv_rhs => unfold eval
      rw [← e]
      rcases hc with ⟨e1, e2⟩ | ⟨i, v, hi, e1, e2⟩
      · simp only at e1
        rw [e1, e2]
      · simp only at e1
        rw [e1, e2, eval_set hp hm (fun h' => hd i h' hi)]
    | join => conv_rhs => unfold eval
              simp only [eval]

/-- The programs a program can turn into in one step, whatever the array holds. -/
def Next (p' p : Prog V) : Prop := ∃ m m', Step (p, m) (p', m')

theorem acc_next : ∀ p : Prog V, Acc Next p
  | .done => ⟨_, fun _ ⟨_, _, h⟩ => by cases h⟩
  | .panic => ⟨_, fun _ ⟨_, _, h⟩ => by cases h⟩
  | .rd i k => ⟨_, fun _ ⟨_, _, h⟩ => by
      cases h with
      | rd _ => exact acc_next (k _)
      | rdOut _ => exact ⟨_, fun _ ⟨_, _, h⟩ => by cases h⟩⟩
  | .wr i v k => ⟨_, fun _ ⟨_, _, h⟩ => by
      cases h with
      | wr _ => exact acc_next k
      | wrOut _ => exact ⟨_, fun _ ⟨_, _, h⟩ => by cases h⟩⟩
  | .join p q k => by
    have hk := acc_next k
    have hp := acc_next p
    have hq := acc_next q
    induction hp generalizing q with
    | intro p _ ihp =>
      induction hq with
      | intro q hq' ihq =>
        refine ⟨_, fun r ⟨m, m', h⟩ => ?_⟩
        cases h with
        | left h => exact ihp _ ⟨_, _, h⟩ q ⟨_, hq'⟩
        | right h => exact ihq _ ⟨_, _, h⟩
        | join => exact hk

theorem within_no_panic : ∀ {p : Prog V} {S : Nat → Prop}, Within T S p → ¬Panicked p
  | .done, _, _ => id
  | .panic, _, h => h.elim
  | .rd _ _, _, _ => id
  | .wr _ _ _, _, _ => id
  | .join _ _ _, _, ⟨⟨_, _, _, _, _, hp, hq⟩, _⟩ => by
    rintro (h | h)
    · exact within_no_panic hp h
    · exact within_no_panic hq h

theorem within_accesses : ∀ {p : Prog V} {S : Nat → Prop} {i : Nat} {w : Bool}, Within T S p → Accesses p i w → S i
  | .done, _, _, _, _, h => h.elim
  | .panic, _, _, _, _, h => h.elim
  | .rd _ _, _, _, _, h, ha => ha.1 ▸ h.1
  | .wr _ _ _, _, _, _, h, ha => ha.1 ▸ h.1
  | .join _ _ _, _, _, _, ⟨⟨_, _, _, h1, h2, hp, hq⟩, _⟩, ha => by
    rcases ha with h | h
    · exact h1 _ (within_accesses hp h)
    · exact h2 _ (within_accesses hq h)

theorem within_no_race : ∀ {p : Prog V} {S : Nat → Prop}, Within T S p → ¬Race p
  | .done, _, _ => id
  | .panic, _, _ => id
  | .rd _ _, _, _ => id
  | .wr _ _ _, _, _ => id
  | .join _ _ _, _, ⟨⟨_, _, hd, _, _, hp, hq⟩, _⟩ => by
    rintro (⟨i, w, w', h1, h2, -⟩ | h | h)
    · exact hd i (within_accesses hp h1) (within_accesses hq h2)
    · exact within_no_race hp h
    · exact within_no_race hq h

/-- A program within the array that is not done can go on. -/
theorem within_progress : ∀ {p : Prog V} {S : Nat → Prop} {m : List V}, (∀ i, S i → i < m.length) → Within T S p → p ≠ .done →
    ∃ c, Step (p, m) c
  | .done, _, _, _, _, h => absurd rfl h
  | .panic, _, _, _, h, _ => h.elim
  | .rd i k, _, m, hS, h, _ => ⟨_, .rd (List.getElem?_eq_getElem (hS i h.1))⟩
  | .wr i v k, _, m, hS, h, _ => ⟨_, .wr (hS i h.1)⟩
  | .join p q k, _, m, hS, ⟨⟨S1, S2, hd, h1, h2, hp, hq⟩, _⟩, _ => by
    by_cases ep : p = .done
    · by_cases eq : q = .done
      · subst ep eq
        exact ⟨_, .join⟩
      · obtain ⟨c, hc⟩ := within_progress (fun i hi => hS i (h2 i hi)) hq eq
        exact ⟨(.join p c.1 k, c.2), .right hc⟩
    · obtain ⟨c, hc⟩ := within_progress (fun i hi => hS i (h1 i hi)) hp ep
      exact ⟨(.join c.1 q k, c.2), .left hc⟩

/-- A program whose parallel parts are disjoint has the outcome of the sequential run under every schedule. -/
theorem outcome_of_within {p : Prog V} {S : Nat → Prop} {m : List V} (hS : ∀ i, S i → i < m.length) (hm : Typed T m) (hw : Within T S p) :
    Outcome p m (eval p m) := by
  have inv : ∀ c, Relation.ReflTransGen Step (p, m) c → Within T S c.1 ∧ c.2.length = m.length ∧ eval c.1 c.2 = eval p m ∧ Typed T c.2 := by
    intro c hc
    induction hc with
    | refl => exact ⟨hw, rfl, rfl, hm⟩
    | tail _ hs ih =>
      obtain ⟨i1, i2, i3, i4⟩ := ih
      have hS' := fun i hi => (hS i hi).trans_eq i2.symm
      have := step_within hs hS' i4 i1
      exact ⟨this.1, this.2.1.trans i2, (step_eval _ hs hS' i4 i1).trans i3, this.2.2⟩
  refine ⟨?_, ?_, fun c hc => within_no_panic (inv c hc).1, fun c hc => within_no_race (inv c hc).1⟩
  · rintro ⟨c, h0, hc⟩
    have key : ∀ q : Prog V, Acc Next q → ∀ n, (c n).1 ≠ q := by
      intro q hq
      induction hq with
      | intro q _ ih => intro n e; exact ih (c (n + 1)).1 ⟨(c n).2, (c (n + 1)).2, e ▸ hc n⟩ (n + 1) rfl
    exact key _ (acc_next _) 0 rfl
  · intro c hc hstop
    obtain ⟨i1, i2, i3, -⟩ := inv c hc
    have : c.1 = .done := by
      by_contra h
      obtain ⟨c', h'⟩ := within_progress (m := c.2) (fun i hi => (hS i hi).trans_eq i2.symm) i1 h
      exact hstop c' h'
    obtain ⟨c1, c2⟩ := c
    simp only at this
    subst this
    rw [← i3]
    rfl

end Kogarashi.Spec

namespace Kogarashi.Groth16

open Kogarashi.Spec

theorem getElem?_mid {F : Type} (X : List F) (a : F) (Y : List F) : (X ++ a :: Y)[X.length]? = some a := by simp

theorem set_mid {F : Type} (X : List F) (a v : F) (Y : List F) : (X ++ a :: Y).set X.length v = X ++ v :: Y := by simp

theorem rd_eval {F : Type} {m : List F} {i : Nat} {v : F} (h : m[i]? = some v) (k : F → Prog F) : eval (.rd i k) m = eval (k v) m := by
  conv_lhs => unfold eval
  rw [h]

section Fft

variable {F : Type} [Field F]

theorem crossProg_eval {X Y Z : List F} {a b t : F} {ia ib : Nat} (ha : ia = X.length) (hb : ib = X.length + 1 + Y.length) (next : Prog F) :
    eval (crossProg ia ib t next) (X ++ a :: (Y ++ b :: Z)) = eval next (X ++ (a + t) :: (Y ++ (a - t) :: Z)) := by
  have e : ∀ u v : F, X ++ u :: (Y ++ v :: Z) = (X ++ u :: Y) ++ v :: Z := fun u v => by simp
  have hl : ∀ u : F, (X ++ u :: Y).length = ib := fun u => by rw [hb]; simp; omega
  have ra : ∀ u v : F, (X ++ u :: (Y ++ v :: Z))[ia]? = some u := fun u v => by rw [ha]; exact getElem?_mid _ _ _
  have rb : ∀ u v : F, (X ++ u :: (Y ++ v :: Z))[ib]? = some v := fun u v => by rw [e, ← hl u]; exact getElem?_mid _ _ _
  have wa : ∀ u v w : F, (X ++ u :: (Y ++ v :: Z)).set ia w = X ++ w :: (Y ++ v :: Z) := fun u v w => by rw [ha]; exact set_mid _ _ _ _
  have wb : ∀ u v w : F, (X ++ u :: (Y ++ v :: Z)).set ib w = X ++ u :: (Y ++ w :: Z) := fun u v w => by
    rw [e, ← hl u, set_mid, ← e]
  simp only [crossProg, eval, ra, rb, wa, wb]

theorem butterflyProg_eval (tw : List F) (chunk : Nat) {pre post : List F} (next : Prog F) : ∀ {r i : Nat} {L R as bs : List F},
    L.length = i → R.length = i → as.length = r → bs.length = r → (∀ j < i + r, j * chunk < tw.length) →
    eval (butterflyProg tw chunk pre.length (i + r) r i next) (pre ++ (L ++ as) ++ (R ++ bs) ++ post) =
      eval next (pre ++ (L ++ (butterflyFrom chunk tw i as bs).1) ++ (R ++ (butterflyFrom chunk tw i as bs).2) ++ post)
  | 0, i, L, R, as, bs, hL, hR, ha, hb, ht => by
    obtain rfl := List.length_eq_zero_iff.mp ha
    obtain rfl := List.length_eq_zero_iff.mp hb
    simp [butterflyProg, butterflyFrom]
  | r + 1, i, L, R, a :: as, b :: bs, hL, hR, ha, hb, ht => by
    have ha' : as.length = r := by simpa using ha
    have hb' : bs.length = r := by simpa using hb
    have hw : i * chunk < tw.length := ht i (by omega)
    have e : pre ++ (L ++ a :: as) ++ (R ++ b :: bs) ++ post = (pre ++ L) ++ a :: ((as ++ R) ++ b :: (bs ++ post)) := by simp
    have hib : pre.length + (i + (r + 1)) + i = (pre ++ L).length + 1 + (as ++ R).length := by simp; omega
    have hrd : (pre ++ L ++ a :: (as ++ R ++ b :: (bs ++ post)))[pre.length + (i + (r + 1)) + i]? = some b := by
      have e' : pre ++ L ++ a :: (as ++ R ++ b :: (bs ++ post)) = (pre ++ L ++ a :: (as ++ R)) ++ b :: (bs ++ post) := by simp
      rw [e', hib]
      have : (pre ++ L).length + 1 + (as ++ R).length = (pre ++ L ++ a :: (as ++ R)).length := by simp; omega
      rw [this]
      exact getElem?_mid _ _ _
    have ih := butterflyProg_eval tw chunk (pre := pre) (post := post) next (r := r) (i := i + 1)
      (L := L ++ [a + b * tw.getD (i * chunk) 0]) (R := R ++ [a - b * tw.getD (i * chunk) 0]) (as := as) (bs := bs)
      (by simp [hL]) (by simp [hR]) ha' hb' (fun j hj => ht j (by omega))
    have hi : i + 1 + r = i + (r + 1) := by omega
    rw [hi] at ih
    rw [e, butterflyProg, rd_eval hrd]
    have hg : tw[i * chunk]? = some (tw.getD (i * chunk) 0) := by
      rw [List.getD_eq_getElem?_getD, List.getElem?_eq_getElem hw]; rfl
    rw [hg]
    dsimp only
    rw [crossProg_eval (by simp [hL]) hib]
    have e2 : pre ++ L ++ (a + b * tw.getD (i * chunk) 0) :: (as ++ R ++ (a - b * tw.getD (i * chunk) 0) :: (bs ++ post)) =
        pre ++ (L ++ [a + b * tw.getD (i * chunk) 0] ++ as) ++ (R ++ [a - b * tw.getD (i * chunk) 0] ++ bs) ++ post := by simp
    rw [e2, ih]
    simp [butterflyFrom]

theorem fftArith_length (tw : List F) : ∀ (k chunk : Nat) (l : List F), l.length = 2 ^ (k + 1) → (fftArith tw k chunk l).length = 2 ^ (k + 1)
  | 0, _, [a, b], _ => rfl
  | k + 1, chunk, l, h => by
    have h1 : (l.take (2 ^ (k + 1))).length = 2 ^ (k + 1) := by rw [List.length_take, h, pow_succ 2 (k + 1)]; omega
    have h2 : (l.drop (2 ^ (k + 1))).length = 2 ^ (k + 1) := by rw [List.length_drop, h, pow_succ 2 (k + 1)]; omega
    have i1 := fftArith_length tw k (chunk * 2) _ h1
    have i2 := fftArith_length tw k (chunk * 2) _ h2
    have bf : ∀ (as bs : List F) (i : Nat), as.length = bs.length → (butterflyFrom chunk tw i as bs).1.length = as.length ∧
        (butterflyFrom chunk tw i as bs).2.length = as.length := by
      intro as
      induction as with
      | nil => intro bs i hb; cases bs with
        | nil => simp [butterflyFrom]
        | cons => simp at hb
      | cons a as ih => intro bs i hb; cases bs with
        | nil => simp at hb
        | cons b bs =>
          have := ih bs (i + 1) (by simpa using hb)
          simp [butterflyFrom, this]
    unfold fftArith
    dsimp only
    rw [List.length_append]
    generalize fftArith tw k (chunk * 2) (l.take (2 ^ (k + 1))) = L at *
    generalize fftArith tw k (chunk * 2) (l.drop (2 ^ (k + 1))) = R at *
    cases L with
    | nil => exact absurd i1.symm (Nat.two_pow_pos _).ne'
    | cons a as => cases R with
      | nil => exact absurd i2.symm (Nat.two_pow_pos _).ne'
      | cons b bs =>
        have := bf as bs 1 (by simp at i1 i2; omega)
        simp only [butterfly, List.length_cons, this.1, this.2] at i1 ⊢
        rw [pow_succ 2 (k + 1)]; omega

theorem fftProg_eval (tw : List F) : ∀ (k chunk : Nat) (pre l post : List F), l.length = 2 ^ (k + 1) → chunk * 2 ^ k ≤ tw.length → 0 < chunk →
    eval (fftProg tw k pre.length chunk) (pre ++ l ++ post) = pre ++ fftArith tw k chunk l ++ post
  | 0, chunk, pre, [a, b], post, _, _, _ => by
    have e : pre ++ [a, b] ++ post = pre ++ a :: ([] ++ b :: post) := by simp
    have hrd : (pre ++ a :: ([] ++ b :: post))[pre.length + 1]? = some b := by simp
    rw [e, fftProg, rd_eval hrd, crossProg_eval rfl (by simp)]
    simp [eval, fftArith]
  | k + 1, chunk, pre, l, post, h, ht, hc => by
    have h1 : (l.take (2 ^ (k + 1))).length = 2 ^ (k + 1) := by rw [List.length_take, h, pow_succ 2 (k + 1)]; omega
    have h2 : (l.drop (2 ^ (k + 1))).length = 2 ^ (k + 1) := by rw [List.length_drop, h, pow_succ 2 (k + 1)]; omega
    have ht' : chunk * 2 * 2 ^ k ≤ tw.length := by rw [mul_assoc, ← pow_succ']; exact ht
    have i1 := fftProg_eval tw k (chunk * 2) pre (l.take (2 ^ (k + 1))) (l.drop (2 ^ (k + 1)) ++ post) h1 ht' (by omega)
    have l1 := fftArith_length tw k (chunk * 2) _ h1
    have l2 := fftArith_length tw k (chunk * 2) _ h2
    have i2 := fftProg_eval tw k (chunk * 2) (pre ++ fftArith tw k (chunk * 2) (l.take (2 ^ (k + 1)))) (l.drop (2 ^ (k + 1))) post h2 ht' (by omega)
    rw [List.length_append, l1] at i2
    have e : pre ++ l ++ post = pre ++ l.take (2 ^ (k + 1)) ++ (l.drop (2 ^ (k + 1)) ++ post) := by
      conv_lhs => rw [← List.take_append_drop (2 ^ (k + 1)) l]
      simp only [List.append_assoc]
    unfold fftProg fftArith
    dsimp only
    rw [e]
    conv_lhs => unfold eval
    rw [i1, ← List.append_assoc, i2]
    generalize fftArith tw k (chunk * 2) (l.take (2 ^ (k + 1))) = L at *
    generalize fftArith tw k (chunk * 2) (l.drop (2 ^ (k + 1))) = R at *
    clear i1 i2 e
    cases L with
    | nil => exact absurd l1.symm (Nat.two_pow_pos _).ne'
    | cons a as => cases R with
      | nil => exact absurd l2.symm (Nat.two_pow_pos _).ne'
      | cons b bs =>
        simp only [List.length_cons] at l1 l2
        have e : pre ++ a :: as ++ b :: bs ++ post = pre ++ a :: (as ++ b :: (bs ++ post)) := by simp
        have hib : pre.length + 2 ^ (k + 1) = pre.length + 1 + as.length := by omega
        have hrd : (pre ++ a :: (as ++ b :: (bs ++ post)))[pre.length + 2 ^ (k + 1)]? = some b := by
          have e' : pre ++ a :: (as ++ b :: (bs ++ post)) = (pre ++ a :: as) ++ b :: (bs ++ post) := by simp
          have : pre.length + 2 ^ (k + 1) = (pre ++ a :: as).length := by simp; omega
          rw [e', this]
          exact getElem?_mid _ _ _
        rw [e, rd_eval hrd, crossProg_eval rfl hib]
        have hb := butterflyProg_eval tw chunk (pre := pre) (post := post) .done (r := as.length) (i := 1) (L := [a + b]) (R := [a - b])
          (as := as) (bs := bs) rfl rfl rfl (by omega) (fun j hj => lt_of_lt_of_le
            (Nat.mul_lt_mul_of_pos_right hj hc) (by rw [mul_comm]; refine le_trans (Nat.mul_le_mul_left _ ?_) ht; omega))
        have hh : 1 + as.length = 2 ^ (k + 1) := by omega
        have hr : as.length = 2 ^ (k + 1) - 1 := by omega
        rw [hh, hr] at hb
        have e2 : pre ++ (a + b) :: (as ++ (a - b) :: (bs ++ post)) = pre ++ ([a + b] ++ as) ++ ([a - b] ++ bs) ++ post := by simp
        rw [e2, hb]
        simp [eval, butterfly]

theorem crossProg_within {S : Nat → Prop} {a b : Nat} (ha : S a) (hb : S b) (t : F) {next : Prog F} (h : Within (fun _ _ => True) S next) :
    Within (fun _ _ => True) S (crossProg a b t next) :=
  ⟨ha, fun _ _ => ⟨hb, trivial, ha, fun _ _ => ⟨ha, trivial, hb, fun _ _ => ⟨hb, trivial, h⟩⟩⟩⟩

theorem butterflyProg_within (tw : List F) (chunk off half : Nat) {S : Nat → Prop} (hS : ∀ i, off ≤ i → i < off + 2 * half → S i)
    {next : Prog F} (hn : Within (fun _ _ => True) S next) (ht : ∀ j < half, j * chunk < tw.length) : ∀ {r i : Nat}, i + r = half →
    Within (fun _ _ => True) S (butterflyProg tw chunk off half r i next)
  | 0, _, _ => hn
  | r + 1, i, h => by
    refine ⟨hS _ (by omega) (by omega), fun v _ => ?_⟩
    rw [List.getElem?_eq_getElem (ht i (by omega))]
    exact crossProg_within (hS _ (by omega) (by omega)) (hS _ (by omega) (by omega)) _
      (butterflyProg_within tw chunk off half hS hn ht (by omega))

theorem fftProg_within (tw : List F) : ∀ (k chunk off : Nat), chunk * 2 ^ k ≤ tw.length → 0 < chunk →
    Within (fun _ _ => True) (fun i => off ≤ i ∧ i < off + 2 ^ (k + 1)) (fftProg tw k off chunk)
  | 0, chunk, off, _, _ => ⟨⟨by omega, by omega⟩, fun v _ => crossProg_within ⟨by omega, by omega⟩ ⟨by omega, by omega⟩ _ trivial⟩
  | k + 1, chunk, off, ht, hc => by
    have ht' : chunk * 2 * 2 ^ k ≤ tw.length := by rw [mul_assoc, ← pow_succ']; exact ht
    have hp : 2 ^ (k + 1 + 1) = 2 * 2 ^ (k + 1) := pow_succ' 2 (k + 1)
    have h0 : 0 < 2 ^ (k + 1) := Nat.two_pow_pos _
    refine ⟨⟨_, _, ?_, ?_, ?_, fftProg_within tw k (chunk * 2) off ht' (by omega),
      fftProg_within tw k (chunk * 2) (off + 2 ^ (k + 1)) ht' (by omega)⟩, ⟨by omega, by omega⟩, fun v _ => ?_⟩
    · intro i h1 h2; omega
    · intro i h1; omega
    · intro i h1; omega
    · refine crossProg_within ⟨by omega, by omega⟩ ⟨by omega, by omega⟩ _ ?_
      refine butterflyProg_within tw chunk off (2 ^ (k + 1)) (fun i h1 h2 => ⟨h1, by omega⟩) (next := .done) True.intro (fun j hj => ?_) (by omega)
      exact lt_of_lt_of_le (Nat.mul_lt_mul_of_pos_right hj hc) (by rw [mul_comm]; exact ht)

end Fft

section Msm

variable {A E : Type} (ops : MsmOps A E)

theorem getAt_lt (i c : Nat) (bytes : List Nat) : getAt i c bytes < 2 ^ c := by
  unfold getAt
  dsimp only
  split
  · exact Nat.two_pow_pos c
  · exact Nat.mod_lt _ (Nat.two_pow_pos c)

/-- The cells from `base` on hold the buckets `row`. (Auxiliary.) -/
def RowAt (m : List (Cell A E)) (base : Nat) (row : List (Bucket A E)) : Prop := ∀ j b, row[j]? = some b → m[base + j]? = some (.bucket b)

theorem RowAt.set {m : List (Cell A E)} {base : Nat} {row : List (Bucket A E)} (h : RowAt m base row) {j : Nat} {b : Bucket A E}
    (hj : row[j]? = some b) (f : Bucket A E → Bucket A E) : RowAt (m.set (base + j) (.bucket (f b))) base (row.modify j f) := by
  intro i b' hb'
  have hlt : base + j < m.length := (List.getElem?_eq_some_iff.mp (h j b hj)).1
  by_cases e : i = j
  · subst e
    rw [List.getElem?_modify_eq, hj] at hb'
    rw [List.getElem?_set_self hlt]
    simpa using hb'
  · rw [List.getElem?_modify_ne _ _ (Ne.symm e)] at hb'
    rw [List.getElem?_set_ne (by omega)]
    exact h i b' hb'

theorem fillProg_eval (i c base : Nat) : ∀ (es : List (List Nat × A)) (m : List (Cell A E)) (row : List (Bucket A E)),
    row.length = 2 ^ c - 1 → RowAt m base row →
    ∃ m', (∀ next, eval (fillProg ops i c base es next) m = eval next m') ∧ RowAt m' base (es.foldl (fillStep ops i c) row) ∧ m'.length = m.length
  | [], m, row, _, h => ⟨m, fun _ => rfl, h, rfl⟩
  | e :: es, m, row, hl, h => by
    rw [List.foldl_cons]
    by_cases hs : getAt i c e.1 ≠ 0
    · have hlt : getAt i c e.1 - 1 < 2 ^ c - 1 := by have := getAt_lt i c e.1; omega
      obtain ⟨b, hb⟩ : ∃ b, row[getAt i c e.1 - 1]? = some b := ⟨_, List.getElem?_eq_getElem (by omega)⟩
      have hst : fillStep ops i c row e = row.modify (getAt i c e.1 - 1) (Bucket.addAssign ops e.2) := by
        unfold fillStep; dsimp only; rw [if_pos hs]
      rw [hst]
      obtain ⟨m', h1, h2, h3⟩ := fillProg_eval i c base es _ (row.modify (getAt i c e.1 - 1) (Bucket.addAssign ops e.2))
        (by rw [List.length_modify]; exact hl) (h.set hb (Bucket.addAssign ops e.2))
      refine ⟨m', fun next => ?_, h2, h3.trans List.length_set⟩
      rw [← h1 next, fillProg]
      rw [if_pos hs, if_pos hlt, rd_eval (h _ _ hb)]
      rfl
    · have hst : fillStep ops i c row e = row := by unfold fillStep; dsimp only; rw [if_neg hs]
      rw [hst]
      obtain ⟨m', h1, h2, h3⟩ := fillProg_eval i c base es m row hl h
      refine ⟨m', fun next => ?_, h2, h3⟩
      rw [← h1 next, fillProg]
      rw [if_neg hs]

theorem partsProg_eval (base : Nat) (next : E → Prog (Cell A E)) {m : List (Cell A E)} {row : List (Bucket A E)} (h : RowAt m base row) :
    ∀ (j : Nat) (s : E × E), j ≤ row.length →
    eval (partsProg ops base j s next) m = eval (next (((row.take j).reverse.foldl (partsStep ops) s).1)) m
  | 0, s, _ => by simp [partsProg]
  | j + 1, s, hj => by
    have hb : row[j]? = some row[j] := List.getElem?_eq_getElem hj
    rw [partsProg, rd_eval (h _ _ hb)]
    rw [partsProg_eval base next h j _ (by omega), List.take_add_one, hb, Option.toList_some, List.reverse_append, List.foldl_append]
    rfl

/-- The cells used for segment `i` of `n`. (Auxiliary.) -/
def segCells (c n i : Nat) (x : Nat) : Prop :=
  (i * (2 ^ c - 1) ≤ x ∧ x < (i + 1) * (2 ^ c - 1)) ∨ x = n * (2 ^ c - 1) + (n - 1 - i)

theorem segCells_disjoint {c n i j x : Nat} (hi : i < n) (hj : j < n) (hij : i ≠ j) (h1 : segCells c n i x) (h2 : segCells c n j x) : False := by
  have mono : ∀ {a b : Nat}, a < b → (a + 1) * (2 ^ c - 1) ≤ b * (2 ^ c - 1) := fun h => Nat.mul_le_mul_right _ h
  rcases h1 with ⟨a1, a2⟩ | a <;> rcases h2 with ⟨b1, b2⟩ | b
  · rcases Nat.lt_or_gt_of_ne hij with h | h
    · have := mono h; omega
    · have := mono h; omega
  · have := mono hi; omega
  · have := mono hj; omega
  · omega

/-- Buckets before cell `n (2^c - 1)`, slots from there on. (Auxiliary.) -/
def cellKind (c n : Nat) (x : Nat) : Cell A E → Prop
  | .bucket _ => x < n * (2 ^ c - 1)
  | .out _ => n * (2 ^ c - 1) ≤ x

theorem fillProg_within (i c n : Nat) (hi : i < n) {S : Nat → Prop} (hS : ∀ x, segCells c n i x → S x) {next : Prog (Cell A E)}
    (hn : Within (cellKind c n) S next) : ∀ es : List (List Nat × A),
    Within (cellKind c n) S (fillProg ops i c (i * (2 ^ c - 1)) es next)
  | [] => hn
  | e :: es => by
    have ih := fillProg_within i c n hi hS hn es
    rw [fillProg]
    have hrow : (i + 1) * (2 ^ c - 1) ≤ n * (2 ^ c - 1) := Nat.mul_le_mul_right _ hi
    have hrow' : (i + 1) * (2 ^ c - 1) = i * (2 ^ c - 1) + (2 ^ c - 1) := Nat.succ_mul _ _
    by_cases hs : getAt i c e.1 ≠ 0
    · have hlt : getAt i c e.1 - 1 < 2 ^ c - 1 := by have := getAt_lt i c e.1; omega
      rw [if_pos hs, if_pos hlt]
      have hcell : S (i * (2 ^ c - 1) + (getAt i c e.1 - 1)) := hS _ (.inl ⟨by omega, by omega⟩)
      refine ⟨hcell, fun v hv => ?_⟩
      cases v with
      | bucket b => exact ⟨hcell, by show _ < _; omega, ih⟩
      | out o => have hv' : n * (2 ^ c - 1) ≤ i * (2 ^ c - 1) + (getAt i c e.1 - 1) := hv; exfalso; omega
    · rw [if_neg hs]
      exact ih

theorem partsProg_within (i c n : Nat) (hi : i < n) {S : Nat → Prop} (hS : ∀ x, segCells c n i x → S x) {next : E → Prog (Cell A E)}
    (hn : ∀ e, Within (cellKind c n) S (next e)) : ∀ (j : Nat) (s : E × E), j ≤ 2 ^ c - 1 →
    Within (cellKind c n) S (partsProg ops (i * (2 ^ c - 1)) j s next)
  | 0, s, _ => hn _
  | j + 1, s, hj => by
    have hrow : (i + 1) * (2 ^ c - 1) ≤ n * (2 ^ c - 1) := Nat.mul_le_mul_right _ hi
    have hrow' : (i + 1) * (2 ^ c - 1) = i * (2 ^ c - 1) + (2 ^ c - 1) := Nat.succ_mul _ _
    refine ⟨hS _ (.inl ⟨by omega, by omega⟩), fun v hv => ?_⟩
    cases v with
    | bucket b => exact partsProg_within i c n hi hS hn j _ (by omega)
    | out o => have hv' : n * (2 ^ c - 1) ≤ i * (2 ^ c - 1) + j := hv; exfalso; omega

variable (coeffs : List (List Nat)) (bases : List A)

theorem segmentProg_within {i c n : Nat} (hi : i < n) {S : Nat → Prop} (hS : ∀ x, segCells c n i x → S x) {next : Prog (Cell A E)}
    (hn : Within (cellKind c n) S next) : Within (cellKind c n) S (segmentProg ops c n coeffs bases i next) := by
  refine fillProg_within ops i c n hi hS (partsProg_within ops i c n hi hS (fun e => ?_) _ _ le_rfl) _
  exact ⟨hS _ (.inr rfl), Nat.le_add_right _ _, hn⟩

theorem piecesProg_within (c n : Nat) : ∀ (sp : Split) (is : List Nat), is.Nodup → (∀ i ∈ is, i < n) →
    Within (cellKind c n) (fun x => ∃ i ∈ is, segCells c n i x) (piecesProg ops c n coeffs bases sp is)
  | .leaf, is, _, hlt => by
    suffices h : ∀ (js : List Nat), (∀ j ∈ js, j ∈ is) → Within (cellKind c n) (fun x => ∃ i ∈ is, segCells c n i x)
        (js.foldr (segmentProg ops c n coeffs bases) .done) from h is (fun _ h => h)
    intro js
    induction js with
    | nil => exact fun _ => True.intro
    | cons j js ih =>
      intro hj
      exact segmentProg_within ops coeffs bases (hlt j (hj j (by simp))) (fun x hx => ⟨j, hj j (by simp), hx⟩)
        (ih fun k hk => hj k (by simp [hk]))
  | .node k s t, is, hnd, hlt => by
    have hsplit := List.take_append_drop k is
    have hnd' : (is.take k ++ is.drop k).Nodup := by rw [hsplit]; exact hnd
    rw [List.nodup_append] at hnd'
    refine ⟨⟨_, _, ?_, ?_, ?_, piecesProg_within c n s (is.take k) hnd'.1 (fun i hi => hlt i (List.mem_of_mem_take hi)),
      piecesProg_within c n t (is.drop k) hnd'.2.1 (fun i hi => hlt i (List.mem_of_mem_drop hi))⟩, True.intro⟩
    · rintro x ⟨i, hi, h1⟩ ⟨j, hj, h2⟩
      exact segCells_disjoint (hlt i (List.mem_of_mem_take hi)) (hlt j (List.mem_of_mem_drop hj)) (hnd'.2.2 i hi j hj) h1 h2
    · rintro x ⟨i, hi, h1⟩; exact ⟨i, List.mem_of_mem_take hi, h1⟩
    · rintro x ⟨i, hi, h1⟩; exact ⟨i, List.mem_of_mem_drop hi, h1⟩

/-- Segment `i` alone: its slot holds the result. -/
theorem segmentProg_eval {i c n : Nat} (hi : i < n) {m : List (Cell A E)}
    (hl : m.length = n * (2 ^ c - 1) + n) (hr : RowAt m (i * (2 ^ c - 1)) (List.replicate (2 ^ c - 1) .none)) :
    ∃ m', (∀ next, eval (segmentProg ops c n coeffs bases i next) m = eval next m') ∧ m'.length = m.length ∧
      m'[n * (2 ^ c - 1) + (n - 1 - i)]? = some (.out (some (segment ops c coeffs bases i))) := by
  unfold segmentProg
  obtain ⟨m1, h1, h2, h3⟩ := fillProg_eval ops i c (i * (2 ^ c - 1)) (coeffs.zip bases) m _ (List.length_replicate) hr
  have hlen : ((coeffs.zip bases).foldl (fillStep ops i c) (List.replicate (2 ^ c - 1) .none)).length = 2 ^ c - 1 := by
    have : ∀ (es : List (List Nat × A)) (row : List (Bucket A E)), (es.foldl (fillStep ops i c) row).length = row.length := by
      intro es
      induction es with
      | nil => intro row; rfl
      | cons e es ih =>
        intro row
        rw [List.foldl_cons, ih]
        unfold fillStep
        dsimp only
        split
        · exact List.length_modify _ _ _
        · rfl
    rw [this, List.length_replicate]
  refine ⟨_, fun next => (h1 _).trans ((partsProg_eval ops _ _ h2 (2 ^ c - 1) _ hlen.ge).trans rfl), ?_, ?_⟩
  · rw [List.length_set]; exact h3
  · rw [List.getElem?_set_self (by rw [h3, hl]; omega), List.take_of_length_le hlen.le]
    rfl

theorem rowAt_frame {p : Prog (Cell A E)} {c n i : Nat} {is : List Nat} (hi : i < n) (his : ∀ j ∈ is, j < n) (hni : i ∉ is)
    {m : List (Cell A E)} (hm : Typed (cellKind c n) m) (hw : Within (cellKind c n) (fun x => ∃ j ∈ is, segCells c n j x) p)
    (hr : RowAt m (i * (2 ^ c - 1)) (List.replicate (2 ^ c - 1) .none)) :
    RowAt (eval p m) (i * (2 ^ c - 1)) (List.replicate (2 ^ c - 1) .none) := by
  intro j b hb
  have hj : j < 2 ^ c - 1 := by
    have := (List.getElem?_eq_some_iff.mp hb).1
    rwa [List.length_replicate] at this
  rw [eval_frame hw hm]
  · exact hr j b hb
  · rintro ⟨k, hk, hx⟩
    have hrow' : (i + 1) * (2 ^ c - 1) = i * (2 ^ c - 1) + (2 ^ c - 1) := Nat.succ_mul _ _
    exact segCells_disjoint hi (his k hk) (fun e => hni (e ▸ hk)) (.inl ⟨by omega, by omega⟩) hx

theorem piecesProg_eval (c n : Nat) : ∀ (sp : Split) (is : List Nat), is.Nodup → (∀ i ∈ is, i < n) → ∀ m : List (Cell A E),
    m.length = n * (2 ^ c - 1) + n → Typed (cellKind c n) m →
    (∀ i ∈ is, RowAt m (i * (2 ^ c - 1)) (List.replicate (2 ^ c - 1) .none)) →
    ∀ i ∈ is, (eval (piecesProg ops c n coeffs bases sp is) m)[n * (2 ^ c - 1) + (n - 1 - i)]? =
      some (.out (some (segment ops c coeffs bases i)))
  | .leaf, is, hnd, hlt, m, hl, hm, hr => by
    show ∀ i ∈ is, (eval (is.foldr (segmentProg ops c n coeffs bases) .done) m)[_]? = _
    induction is generalizing m with
    | nil => simp
    | cons j js ih =>
      rw [List.nodup_cons] at hnd
      have hj : j < n := hlt j (by simp)
      obtain ⟨m', h1, h2, h3⟩ := segmentProg_eval ops coeffs bases hj hl (hr j (by simp))
      have e' : eval (segmentProg ops c n coeffs bases j .done) m = m' := h1 .done
      have wj : Within (cellKind c n) (fun x => ∃ i ∈ [j], segCells c n i x) (segmentProg ops c n coeffs bases j .done) :=
        segmentProg_within ops coeffs bases hj (fun x hx => ⟨j, by simp, hx⟩) True.intro
      have tj : Typed (cellKind c n) m' := e' ▸ eval_typed wj hm
      have hlt' : ∀ i ∈ js, i < n := fun i hi => hlt i (by simp [hi])
      have hr' : ∀ i ∈ js, RowAt m' (i * (2 ^ c - 1)) (List.replicate (2 ^ c - 1) .none) := fun i hi => e' ▸
        rowAt_frame (hlt' i hi) (by simpa using hj) (by rintro h; rw [List.mem_singleton] at h; exact hnd.1 (h ▸ hi)) hm wj (hr i (by simp [hi]))
      have wjs : Within (cellKind c n) (fun x => ∃ i ∈ js, segCells c n i x) (js.foldr (segmentProg ops c n coeffs bases) .done) :=
        piecesProg_within ops coeffs bases c n .leaf js hnd.2 hlt'
      rw [List.foldr_cons, h1]
      intro i hi
      rw [List.mem_cons] at hi
      rcases hi with rfl | hi
      · rw [eval_frame wjs tj]
        · exact h3
        · rintro ⟨k, hk, hx⟩
          exact segCells_disjoint hj (hlt' k hk) (fun e => hnd.1 (e ▸ hk)) (.inr rfl) hx
      · exact ih hnd.2 hlt' m' (h2.trans hl) tj hr' i hi
  | .node k s t, is, hnd, hlt, m, hl, hm, hr => by
    have hsplit := List.take_append_drop k is
    have hnd' : (is.take k ++ is.drop k).Nodup := by rw [hsplit]; exact hnd
    rw [List.nodup_append] at hnd'
    have lt1 : ∀ i ∈ is.take k, i < n := fun i hi => hlt i (List.mem_of_mem_take hi)
    have lt2 : ∀ i ∈ is.drop k, i < n := fun i hi => hlt i (List.mem_of_mem_drop hi)
    have w1 := piecesProg_within ops coeffs bases c n s (is.take k) hnd'.1 lt1
    have w2 := piecesProg_within ops coeffs bases c n t (is.drop k) hnd'.2.1 lt2
    have e1 := piecesProg_eval c n s (is.take k) hnd'.1 lt1 m hl hm (fun i hi => hr i (List.mem_of_mem_take hi))
    have t1 := eval_typed w1 hm
    have e2 := piecesProg_eval c n t (is.drop k) hnd'.2.1 lt2 (eval (piecesProg ops c n coeffs bases s (is.take k)) m)
      (by rw [eval_length]; exact hl) t1
      (fun i hi => rowAt_frame (lt2 i hi) lt1 (fun h => hnd'.2.2 i h i hi rfl) hm w1 (hr i (List.mem_of_mem_drop hi)))
    intro i hi
    show (eval .done (eval (piecesProg ops c n coeffs bases t (is.drop k)) (eval (piecesProg ops c n coeffs bases s (is.take k)) m)))[_]? = _
    rw [← hsplit, List.mem_append] at hi
    rw [eval]
    rcases hi with hi | hi
    · rw [eval_frame w2 t1]
      · exact e1 i hi
      · rintro ⟨j, hj, hx⟩
        exact segCells_disjoint (lt1 i hi) (lt2 j hj) (hnd'.2.2 i hi j hj) (.inr rfl) hx
    · exact e2 i hi

end Msm

end Kogarashi.Groth16
