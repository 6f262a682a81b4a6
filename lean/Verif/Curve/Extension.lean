import Mathlib.Algebra.Group.Subgroup.Basic
import Mathlib.Algebra.Group.Hom.Instances
import Mathlib.Tactic.Group
import Mathlib.Tactic.Abel
import Mathlib.Tactic.Ring

/-!
# Extensions of groups by symmetric cocycles, and the map behind the ate pairing

The lines of Miller's algorithm form a symmetric 2-cocycle; a Miller loop is a power in the extension group it defines.
Nothing here is about the code: it is the algebra used by `Verif/Tower/Bilinear.lean`.
-/

namespace Kogarashi.Curve

variable {T M M' : Type} [AddCommGroup T] [CommGroup M] [CommGroup M']

/-- A normalised symmetric 2-cocycle. -/
structure Cocycle (T M : Type) [AddCommGroup T] [CommGroup M] where
  c : T → T → M
  zero : ∀ A, c 0 A = 1
  symm : ∀ A B, c A B = c B A
  assoc : ∀ A B C, c A B * c (A + B) C = c B C * c A (B + C)

/-- The extension of `T` by `M`. -/
@[ext]
structure Ext (κ : Cocycle T M) where
  pt : T
  val : M

namespace Ext

variable {κ : Cocycle T M}

instance : Mul (Ext κ) := ⟨fun x y => ⟨x.pt + y.pt, x.val * y.val * κ.c x.pt y.pt⟩⟩
instance : One (Ext κ) := ⟨⟨0, 1⟩⟩
instance : Inv (Ext κ) := ⟨fun x => ⟨-x.pt, (x.val * κ.c (-x.pt) x.pt)⁻¹⟩⟩

@[simp] theorem mul_pt (x y : Ext κ) : (x * y).pt = x.pt + y.pt := rfl
@[simp] theorem mul_val (x y : Ext κ) : (x * y).val = x.val * y.val * κ.c x.pt y.pt := rfl
@[simp] theorem one_pt : (1 : Ext κ).pt = 0 := rfl
@[simp] theorem one_val : (1 : Ext κ).val = 1 := rfl
@[simp] theorem inv_pt (x : Ext κ) : (x⁻¹).pt = -x.pt := rfl
@[simp] theorem inv_val (x : Ext κ) : (x⁻¹).val = (x.val * κ.c (-x.pt) x.pt)⁻¹ := rfl

instance : CommGroup (Ext κ) where
  mul_assoc x y z := by
    refine Ext.ext (add_assoc _ _ _) ?_
    simp only [mul_val, mul_pt]
    have h := κ.assoc x.pt y.pt z.pt
    calc x.val * y.val * κ.c x.pt y.pt * z.val * κ.c (x.pt + y.pt) z.pt
        = x.val * y.val * z.val * (κ.c x.pt y.pt * κ.c (x.pt + y.pt) z.pt) := by
          rw [mul_right_comm (x.val * y.val), mul_assoc (x.val * y.val * z.val)]
      _ = x.val * y.val * z.val * (κ.c y.pt z.pt * κ.c x.pt (y.pt + z.pt)) := by rw [h]
      _ = _ := by simp only [mul_assoc]
  one_mul x := Ext.ext (zero_add _) (by simp [κ.zero])
  mul_one x := Ext.ext (add_zero _) (by simp [κ.symm _ 0, κ.zero])
  inv_mul_cancel x := by
    refine Ext.ext (neg_add_cancel _) ?_
    simp only [mul_val, inv_val, inv_pt, one_val]
    rw [mul_assoc, inv_mul_cancel]
  mul_comm x y := Ext.ext (add_comm _ _) (by simp [κ.symm x.pt, mul_comm x.val])

/-- Homomorphisms of extensions. -/
def map {κ' : Cocycle T M'} (f : T →+ T) (φ : M →* M') (h : T → M')
    (hh : ∀ A B, φ (κ.c A B) * h (A + B) = h A * h B * κ'.c (f A) (f B)) : Ext κ →* Ext κ' :=
  MonoidHom.mk' (fun x => ⟨f x.pt, φ x.val * h x.pt⟩) fun x y => by
    refine Ext.ext (map_add f _ _) ?_
    simp only [mul_val, mul_pt, map_mul]
    rw [mul_assoc (φ x.val * φ y.val), hh]
    simp only [mul_assoc, mul_left_comm, mul_comm]

@[simp] theorem map_pt {κ' : Cocycle T M'} (f : T →+ T) (φ : M →* M') (h : T → M') (hh) (x : Ext κ) :
    (map (κ' := κ') f φ h hh x).pt = f x.pt := rfl
@[simp] theorem map_val {κ' : Cocycle T M'} (f : T →+ T) (φ : M →* M') (h : T → M') (hh) (x : Ext κ) :
    (map (κ' := κ') f φ h hh x).val = φ x.val * h x.pt := rfl

/-- The inclusion of the kernel. -/
def inl : M →* Ext κ := MonoidHom.mk' (fun c => ⟨0, c⟩) fun a b => by
  refine Ext.ext (add_zero _).symm ?_
  simp [κ.zero]

@[simp] theorem inl_pt (c : M) : (inl c : Ext κ).pt = 0 := rfl
@[simp] theorem inl_val (c : M) : (inl c : Ext κ).val = c := rfl

theorem eq_inl {x : Ext κ} (h : x.pt = 0) : x = inl x.val := Ext.ext h rfl

/-- The projection as a homomorphism. -/
def proj : Ext κ →* Multiplicative T := MonoidHom.mk' (fun x => .ofAdd x.pt) fun _ _ => rfl

theorem zpow_pt (x : Ext κ) (m : Int) : (x ^ m).pt = m • x.pt := congrArg Multiplicative.toAdd (map_zpow proj x m)

end Ext

open Ext

/-- A cocycle on which an endomorphism `π` acts as the `q`-th power. -/
structure Equivariant (κ : Cocycle T M) (π : T →+ T) (q : Nat) : Prop where
  pow : ∀ A B, κ.c (π A) (π B) = κ.c A B ^ q

section Ate

variable {κ : Cocycle T M} {π : T →+ T} {q : Nat} (hπ : Equivariant κ π q) (m : Int)

/-- The action of the endomorphism on the extension. -/
def act : Ext κ →* Ext κ := map π (powMonoidHom q) (fun _ => 1) fun A B => by
  rw [powMonoidHom_apply, hπ.pow]; simp

@[simp] theorem act_pt (x : Ext κ) : (act hπ x).pt = π x.pt := rfl
@[simp] theorem act_val (x : Ext κ) : (act hπ x).val = x.val ^ q := by simp [act]

theorem act_inl (c : M) : act hπ (inl c) = inl (c ^ q) :=
  Ext.ext (map_zero π) (by rw [act_val, inl_val, inl_val])

/-- The product `x^m · πx · (π²x)⁻¹ · π³x`. -/
def ateHom : Ext κ →* Ext κ :=
  zpowGroupHom m * act hπ * ((act hπ).comp (act hπ))⁻¹ * (act hπ).comp ((act hπ).comp (act hπ))

theorem ateHom_apply (x : Ext κ) : ateHom hπ m x =
    x ^ m * act hπ x * (act hπ (act hπ x))⁻¹ * act hπ (act hπ (act hπ x)) := rfl

/-- The pairing value at a point. -/
def ate (A : T) : M := (ateHom hπ m ⟨A, 1⟩).val

variable (hrel : ∀ A : T, m • A + π A + -π (π A) + π (π (π A)) = 0) {r : Nat} (hM : ∀ c : M, c ^ r = 1)
  (hr : (r : Int) ∣ m + q - q ^ 2 + q ^ 3)

include hM hr in
theorem ateHom_inl (c : M) : ateHom hπ m (inl c) = 1 := by
  have e : ateHom hπ m (inl c) = inl (c ^ (m + q - q ^ 2 + q ^ 3)) := by
    rw [ateHom_apply, act_inl, act_inl, act_inl, ← map_zpow, ← map_inv, ← map_mul, ← map_mul, ← map_mul]
    congr 1
    rw [zpow_add, zpow_sub, zpow_add, ← pow_mul, ← pow_mul]
    simp only [← zpow_natCast, Nat.cast_mul]
    rw [pow_two, pow_succ, pow_two]
  obtain ⟨k, hk⟩ := hr
  rw [e, hk, zpow_mul, zpow_natCast, hM, one_zpow, map_one]

include hrel in
theorem ateHom_pt (x : Ext κ) : (ateHom hπ m x).pt = 0 := by
  rw [ateHom_apply]
  simp only [mul_pt, act_pt, inv_pt, zpow_pt]
  exact hrel x.pt

include hrel in
theorem ateHom_eq (A : T) : ateHom hπ m ⟨A, 1⟩ = inl (ate hπ m A) := eq_inl (ateHom_pt hπ m hrel _)

include hrel hM hr in
/-- Additivity in the point. -/
theorem ate_add (A B : T) : ate hπ m (A + B) = ate hπ m A * ate hπ m B := by
  have e : (⟨A, 1⟩ : Ext κ) * ⟨B, 1⟩ = ⟨A + B, 1⟩ * inl (κ.c A B) := by
    refine Ext.ext (add_zero _).symm ?_
    simp [κ.symm _ 0, κ.zero]
  have h := congrArg (ateHom hπ m) e
  rw [map_mul, map_mul, ateHom_inl hπ m hM hr, mul_one, ateHom_eq hπ m hrel, ateHom_eq hπ m hrel,
    ateHom_eq hπ m hrel, ← map_mul] at h
  exact (congrArg Ext.val h).symm

end Ate

section Change

variable {κ₁ κ₂ κ₃ : Cocycle T M} {π : T →+ T} {q : Nat}

/-- The pair of two cocycles. -/
def Cocycle.prod (κ₁ : Cocycle T M) (κ₂ : Cocycle T M') : Cocycle T (M × M') where
  c A B := (κ₁.c A B, κ₂.c A B)
  zero A := by rw [κ₁.zero, κ₂.zero]; rfl
  symm A B := by rw [κ₁.symm, κ₂.symm]
  assoc A B C := Prod.ext (κ₁.assoc A B C) (κ₂.assoc A B C)

theorem Equivariant.prod {κ₁ : Cocycle T M} {κ₂ : Cocycle T M'} (h₁ : Equivariant κ₁ π q) (h₂ : Equivariant κ₂ π q) :
    Equivariant (κ₁.prod κ₂) π q := ⟨fun A B => Prod.ext (h₁.pow A B) (h₂.pow A B)⟩

/-- A homomorphism of extensions over the identity that commutes with the actions carries one pairing to the other. -/
theorem ate_map {κ : Cocycle T M} {κ' : Cocycle T M'} (hπ : Equivariant κ π q) (hπ' : Equivariant κ' π q) (m : Int)
    (hrel : ∀ A : T, m • A + π A + -π (π A) + π (π (π A)) = 0) {r : Nat} (hM : ∀ c : M', c ^ r = 1)
    (hr : (r : Int) ∣ m + q - q ^ 2 + q ^ 3) (φ : M →* M') (h : T → M') (h0 : h 0 = 1)
    (hh : ∀ A B, φ (κ.c A B) * h (A + B) = h A * h B * κ'.c A B) (hq : ∀ A, h (π A) = h A ^ q) (A : T) :
    φ (ate hπ m A) = ate hπ' m A := by
  let θ : Ext κ →* Ext κ' := map (AddMonoidHom.id T) φ h hh
  have hc : ∀ x, θ (act hπ x) = act hπ' (θ x) := by
    intro x
    refine Ext.ext rfl ?_
    change φ ((act hπ x).val) * h (π x.pt) = (act hπ' (θ x)).val
    rw [act_val, act_val, hq, map_pow, ← mul_pow]
    rfl
  have e : θ (ateHom hπ m ⟨A, 1⟩) = ateHom hπ' m (θ ⟨A, 1⟩) := by
    rw [ateHom_apply, ateHom_apply, map_mul, map_mul, map_mul, map_inv, map_zpow, hc, hc, hc, hc, hc, hc]
  have e1 : θ ⟨A, 1⟩ = ⟨A, 1⟩ * inl (h A) := by
    refine Ext.ext (add_zero _).symm ?_
    change φ 1 * h A = _
    simp [κ'.symm _ 0, κ'.zero]
  rw [e1, map_mul, ateHom_inl hπ' m hM hr, mul_one, ateHom_eq hπ m hrel, ateHom_eq hπ' m hrel] at e
  have := congrArg Ext.val e
  change φ _ * h 0 = _ at this
  rw [h0, mul_one] at this
  exact this

/-- Multiplicativity in the cocycle, up to a coboundary. -/
theorem ate_mul (h₁ : Equivariant κ₁ π q) (h₂ : Equivariant κ₂ π q) (h₃ : Equivariant κ₃ π q) (m : Int)
    (hrel : ∀ A : T, m • A + π A + -π (π A) + π (π (π A)) = 0) {r : Nat} (hM : ∀ c : M, c ^ r = 1)
    (hr : (r : Int) ∣ m + q - q ^ 2 + q ^ 3) (h : T → M) (h0 : h 0 = 1)
    (hh : ∀ A B, κ₁.c A B * κ₂.c A B * h (A + B) = h A * h B * κ₃.c A B) (hq : ∀ A, h (π A) = h A ^ q) (A : T) :
    ate h₁ m A * ate h₂ m A = ate h₃ m A := by
  have e1 := ate_map (h₁.prod h₂) h₁ m hrel hM hr (MonoidHom.fst M M) (fun _ => 1) rfl (fun A B => by simp [Cocycle.prod])
    (fun _ => by simp) A
  have e2 := ate_map (h₁.prod h₂) h₂ m hrel hM hr (MonoidHom.snd M M) (fun _ => 1) rfl (fun A B => by simp [Cocycle.prod])
    (fun _ => by simp) A
  have e3 := ate_map (h₁.prod h₂) h₃ m hrel hM hr (MonoidHom.coprod (MonoidHom.id M) (MonoidHom.id M)) h h0
    (fun A B => by simpa [Cocycle.prod] using hh A B) hq A
  rw [← e1, ← e2, ← e3]
  simp

end Change

end Kogarashi.Curve
