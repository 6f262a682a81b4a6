import Verif.Tower.G2

/-!
# Evaluation of powers in Fq12 by the kernel

Coefficient lists of natural numbers in the powers of `w`, with `w¹² = 18 w⁶ - 82`.
-/

namespace Kogarashi.Tower

open Spec Curve WeierstrassCurve.Affine Kogarashi.Field Limbs Props

namespace Eval

/-- The element a coefficient list stands for. -/
def den : List Nat → Fq12 FqV
  | [] => 0
  | c :: cs => (c : Fq12 FqV) + Fq12.w * den cs

/-- Sum. -/
def add : List Nat → List Nat → List Nat
  | [], l => l
  | l, [] => l
  | a :: as, b :: bs => (a + b) :: add as bs

/-- Product of polynomials. -/
def polyMul : List Nat → List Nat → List Nat
  | [], _ => []
  | a :: as, l => add (l.map (a * ·)) (0 :: polyMul as l)

/-- Replaces `w¹²` by `18 w⁶ - 82` once. -/
def fold (l : List Nat) : List Nat :=
  let hi := l.drop 12
  add (l.take 12) (add (hi.map ((qN - 82) * ·)) (0 :: 0 :: 0 :: 0 :: 0 :: 0 :: hi.map (18 * ·)))

/-- Evaluates every entry before going on (a matched number is a literal for the kernel). -/
def force {α : Type} : List Nat → (List Nat → α) → α
  | [], k => k []
  | 0 :: l, k => force l fun l => k (0 :: l)
  | (n + 1) :: l, k => force l fun l => k ((n + 1) :: l)

/-- Product in the field. -/
def mul (a b : List Nat) : List Nat := (fold (fold (fold (polyMul a b)))).map (· % qN)

/-- Square-and-multiply. -/
def pow : Nat → List Nat → Nat → List Nat
  | 0, _, _ => [1]
  | fuel + 1, a, e =>
    force (mul a a) fun a2 => force (pow fuel a2 (e / 2)) fun h => if e % 2 = 1 then force (mul a h) id else h

/-- The coefficients of an element. -/
def ofFq12 (f : Fq12 FqV) : List Nat :=
  let xs := [f.c0.c0, f.c1.c0, f.c0.c1, f.c1.c1, f.c0.c2, f.c1.c2]
  xs.map (fun x => (x.c0.val + (qN - 9) * x.c1.val) % qN) ++ xs.map (fun x => x.c1.val)

theorem force_eq {α : Type} (l : List Nat) (k : List Nat → α) : force l k = k l := by
  induction l generalizing k with
  | nil => rfl
  | cons n l ih => cases n <;> simp only [force, ih]

theorem den_add (a b : List Nat) : den (add a b) = den a + den b := by
  induction a generalizing b with
  | nil => simp [add, den]
  | cons x a ih => cases b with
    | nil => simp [add, den]
    | cons y b => simp only [add, den, ih, Nat.cast_add]; ring

theorem den_map (n : Nat) (l : List Nat) : den (l.map (n * ·)) = n * den l := by
  induction l with
  | nil => simp [den]
  | cons x l ih => simp only [List.map_cons, den, ih, Nat.cast_mul]; ring

theorem den_polyMul (a b : List Nat) : den (polyMul a b) = den a * den b := by
  induction a with
  | nil => simp [polyMul, den]
  | cons x a ih => simp only [polyMul, den_add, den_map, den, ih, Nat.cast_zero]; ring

theorem cast_q : ((qN : Nat) : Fq12 FqV) = 0 := CharP.cast_eq_zero _ _

theorem den_mod (l : List Nat) : den (l.map (· % qN)) = den l := by
  induction l with
  | nil => rfl
  | cons x l ih =>
    simp only [List.map_cons, den, ih]
    have : ((x % qN : Nat) : Fq12 FqV) = (x : Fq12 FqV) := by
      conv_rhs => rw [← Nat.div_add_mod x qN]
      rw [Nat.cast_add, Nat.cast_mul, cast_q, zero_mul, zero_add]
    rw [this]

theorem w12 : (Fq12.w : Fq12 FqV) ^ 12 = 18 * Fq12.w ^ 6 - 82 := by
  have e : (Fq12.w : Fq12 FqV) ^ 6 = iota Fq2.xi := by
    have : (Fq12.w : Fq12 FqV) ^ 6 = (Fq12.w ^ 2) ^ 3 := by rw [← pow_mul]
    rw [this, Fq12.w_sq, ← map_pow, Fq6.v_cube]; rfl
  have e2 : (Fq2.xi : Fq2 FqV) ^ 2 = 18 * Fq2.xi - 82 := by rw [pow_two]; decide +kernel
  have e3 : (Fq12.w : Fq12 FqV) ^ 12 = (Fq12.w ^ 6) ^ 2 := by rw [← pow_mul]
  rw [e3, e, ← map_pow, e2, map_sub, map_mul, map_ofNat, map_ofNat]

theorem den_split (l : List Nat) (n : Nat) : den l = den (l.take n) + Fq12.w ^ n * den (l.drop n) := by
  induction n generalizing l with
  | zero => simp [den]
  | succ n ih => cases l with
    | nil => simp [den]
    | cons x l => simp only [List.take_succ_cons, List.drop_succ_cons, den]; rw [ih l]; ring

theorem den_fold (l : List Nat) : den (fold l) = den l := by
  have h82 : ((qN - 82 : Nat) : Fq12 FqV) = -82 := by
    rw [Nat.cast_sub (by decide +kernel), cast_q]; simp
  rw [den_split l 12, w12]
  simp only [fold, den_add, den, den_map, h82, Nat.cast_zero, Nat.cast_ofNat]
  ring

theorem den_mul (a b : List Nat) : den (mul a b) = den a * den b := by
  rw [mul, den_mod, den_fold, den_fold, den_fold, den_polyMul]

theorem den_pow (fuel : Nat) (a : List Nat) (e : Nat) (h : e < 2 ^ fuel) : den (pow fuel a e) = den a ^ e := by
  induction fuel generalizing a e with
  | zero =>
    have : e = 0 := by simpa using h
    subst this; simp [pow, den]
  | succ fuel ih =>
    have h2 : e / 2 < 2 ^ fuel := by rw [Nat.div_lt_iff_lt_mul (by norm_num)]; rwa [pow_succ] at h
    simp only [pow, force_eq, id]
    have e1 : den (pow fuel (mul a a) (e / 2)) = den a ^ (2 * (e / 2)) := by
      rw [ih _ _ h2, den_mul, pow_mul, pow_two]
    split
    · rename_i hodd
      rw [den_mul, e1, ← pow_succ']
      exact congrArg (fun n => den a ^ n) (by omega)
    · rename_i hodd
      rw [e1]
      exact congrArg (fun n => den a ^ n) (by omega)

theorem fq2_eq (x : Fq2 FqV) : iota x = ((x.c0.val + (qN - 9) * x.c1.val : Nat) : Fq12 FqV) + (x.c1.val : Fq12 FqV) * Fq12.w ^ 6 := by
  have e : (Fq12.w : Fq12 FqV) ^ 6 = iota Fq2.xi := by
    have : (Fq12.w : Fq12 FqV) ^ 6 = (Fq12.w ^ 2) ^ 3 := by rw [← pow_mul]
    rw [this, Fq12.w_sq, ← map_pow, Fq6.v_cube]; rfl
  have h9 : ((qN - 9 : Nat) : Fq12 FqV) = -9 := by
    rw [Nat.cast_sub (by decide +kernel), cast_q]; simp
  have hx : x = (x.c0.val : Fq2 FqV) + (x.c1.val : Fq2 FqV) * (Fq2.xi - 9) := by
    have c : ∀ n : Nat, ((n : Nat) : Fq2 FqV) = Fq2.of ((n : Nat) : FqV) := fun n => (map_natCast Fq2.of n).symm
    rw [c, c, ZMod.natCast_zmod_val, ZMod.natCast_zmod_val]
    have h9' : (9 : Fq2 FqV) = Fq2.of 9 := (map_ofNat Fq2.of 9).symm
    rw [h9']
    ext <;> simp [Fq2.xi]
  rw [e]
  conv_lhs => rw [hx]
  rw [map_add, map_mul, map_sub, map_natCast, map_natCast, map_ofNat, Nat.cast_add, Nat.cast_mul, h9]
  ring

theorem den_ofFq12 (f : Fq12 FqV) : den (ofFq12 f) = f := by
  have hm : ∀ n : Nat, ((n % qN : Nat) : Fq12 FqV) = (n : Fq12 FqV) := fun x => by
    conv_rhs => rw [← Nat.div_add_mod x qN]
    rw [Nat.cast_add, Nat.cast_mul, cast_q, zero_mul, zero_add]
  have hf : f = iota f.c0.c0 + iota f.c1.c0 * Fq12.w + iota f.c0.c1 * Fq12.w ^ 2 + iota f.c1.c1 * Fq12.w ^ 3 +
      iota f.c0.c2 * Fq12.w ^ 4 + iota f.c1.c2 * Fq12.w ^ 5 := by
    have w3 : (Fq12.w : Fq12 FqV) ^ 3 = Fq12.of Fq6.v * Fq12.w := by rw [pow_succ, Fq12.w_sq]
    have w4 : (Fq12.w : Fq12 FqV) ^ 4 = Fq12.of (Fq6.v ^ 2) := by
      have : (Fq12.w : Fq12 FqV) ^ 4 = (Fq12.w ^ 2) ^ 2 := by rw [← pow_mul]
      rw [this, Fq12.w_sq, map_pow]
    have w5 : (Fq12.w : Fq12 FqV) ^ 5 = Fq12.of (Fq6.v ^ 2) * Fq12.w := by rw [pow_succ, w4]
    conv_lhs => rw [Fq12.eq_of f, Fq6.eq_of f.c0, Fq6.eq_of f.c1]
    rw [w3, w4, w5, Fq12.w_sq]
    simp only [iota_eq, map_add, map_mul]
    ring
  conv_rhs => rw [hf]
  simp only [fq2_eq, ofFq12, List.map_cons, List.map_nil, List.cons_append, List.nil_append, den, hm]
  ring

end Eval

set_option maxRecDepth 100000 in
theorem gtGenerator_check :
    Eval.pow 255 (Eval.ofFq12 gtGenerator) frParams.m = [1, 0, 0, 0, 0, 0, 0, 0, 0, 0, 0, 0] := by decide +kernel

theorem gtGenerator_pow : gtGenerator ^ frParams.m = 1 := by
  have h := Eval.den_pow 255 (Eval.ofFq12 gtGenerator) frParams.m (by decide +kernel)
  rw [gtGenerator_check, Eval.den_ofFq12] at h
  rw [← h]
  simp [Eval.den]

theorem gtGenerator_ne_one : gtGenerator ≠ 1 := by decide +kernel

/-! ### The pairing of the generators -/

/-- The Miller loop at the generators. -/
def genMiller : Fq12 FqV := (multiMillerLoop [(g1Gen, prepare g2Gen)]).getD 0

set_option maxRecDepth 100000 in
theorem genMiller_some : (multiMillerLoop [(g1Gen, prepare g2Gen)]).isSome = true := by decide +kernel

set_option maxRecDepth 100000 in
theorem genMiller_ne : genMiller.c0.c0.c0 ≠ 0 := by decide +kernel

/-- The coefficients of the Miller loop at the generators (computed outside; checked below). -/
def genList : List Nat :=
   [0x1eb2ba516b26f3ace3eb34f8cc8d7cdc1cbb00b751a6cf0821af117dd0c403b, 0x5e731cd9de01671f51bb22d21e70f4f17a701680a9735cc93ccd770ef113750,
    0x2dbee0b0e08bfe70b3c9ab24a6067ae46a075f11e27b83d34c51f48453a3b590, 0x1c864b5d9cf7fcd3637005d0b0d2d66b8ae864a4cf6a2278b3d8e3d1b1c1fa43,
    0x44fd77d723fea20f4e3fd6d1dc34b2da56b2e1af4d866db2473eb261b251e7e, 0x2b0bda7b3b2949b0a628830d846f06d650e124c80beeccbf4a666399bd41e710,
    0x1a312ce73dee7386f55c6238bb7b5935a9545be54eddfe6d4dd8916745191707, 0x2f3a4a788b4451cf344550cc8b67f25556d72be41fa89c1ea6b765b2d0e1c41d,
    0x224af84846876048371221f7802c35aaebd5a96e1434e4652bb1b608099c1f6, 0x1c85216e5040e83405c3fdce9deb5f26ccbbd8ac1b18b53fa36c0fb4c62b1b6d,
    0x1503c237ff43b648066930a0ceb59499f3f23895eeb5128b49c5113d9f50f9a1, 0x1129a4fec561e764e76965d707209e17b8a8730897b18ee670374bb3fd5adc9b]

set_option maxRecDepth 100000 in
theorem genList_eq : Eval.ofFq12 genMiller = genList := by decide +kernel

theorem den_genList : Eval.den genList = genMiller := by rw [← genList_eq, Eval.den_ofFq12]

/-- One window of 64 bits of an exponentiation of `genList`. -/
def window (a : List Nat) (c : Nat) : List Nat :=
  Eval.force (Eval.pow 65 a (2 ^ 64)) fun x => Eval.force (Eval.pow 64 genList c) fun y => Eval.mul x y

theorem window_den {a b : List Nat} {c e : Nat} (hc : c < 2 ^ 64) (ha : Eval.den a = genMiller ^ e)
    (h : window a c = b) : Eval.den b = genMiller ^ (e * 2 ^ 64 + c) := by
  rw [← h]
  unfold window
  rw [Eval.force_eq, Eval.force_eq, Eval.den_mul, Eval.den_pow _ _ _ (by norm_num), Eval.den_pow _ _ _ hc, ha,
    den_genList, ← pow_mul, ← pow_add]

/-! The power `h = (q⁶ + 1)/r` in windows; every constant is checked by the kernel. -/

theorem gen0 : Eval.den [1] = genMiller ^ 0 := by simp [Eval.den]

def genPow1 : List Nat :=
   [0x1cb279e6ebe9c9ee57f5c7efb94c8d985856ba9811afa738a9fbbf304ea64a66, 0xb9d6b427fa603df2b629854071ef64c3447f5cafd2c03da6dbbd1723ae79488,
    0xf35c38a5bcc71c55e70a98c56cb07f998b909dd3a8b9b0455cc2647cf76ff20, 0x2bcdcbb1213bbef8d35b130db0436a4320b05609f25769790a2c0d11c6d216b,
    0xf513f5a5551f41c53a683f11b4086a024de79e41bab2d11a3ccf933de2c7d5c, 0x1d0fa076f138126683651c7e999145e0e75dbd0f1f5859487633cc3c771010cf,
    0xbcaed688b68a97b0cdc5358371c7b647e7a0693244ba8b8d6abc783b1dcdf89, 0x10ec3124d142af24ad7f6ea953acd6689e0ca4c437b5a6bba10bb348d27e179,
    0x1f28e560d7416896437d320684f46078ff6503686f66abc7fad864574e6d4214, 0x2ade4af5166ecb5a1ac7b62a00e2c7b18fc36cef78193b9ecf32bc3621816d22,
    0x12d4922f353094a20146cc78b6938ab8ef1a69985e3421215090889dd1904dae, 0x22f949e2d686e5750cce1a24f1adf7e76b58c15a772ef9757f888d399583afe3]

set_option maxRecDepth 100000 in
theorem genWindow1 : window [1] 0xfd14cc52f5b83 = genPow1 := by decide +kernel

def genPow2 : List Nat :=
   [0xc67902f437f560f28baaa31d3a8faaabbfb897ff8c6987742ba9b701e7c4d57, 0x22f5b7c7a2207f54c7699075b369786c7c26b56d07cb5d5fb1c519cefd24be8b,
    0x1f9d33458ac59e25c7399b24e0d866e830bc4ae21b47c36ccd2a16761965538e, 0x25133a04d55871f04cf9911b7b3a7fef9e83007435f535b360f4880baba8bf90,
    0x14e4de0bb145eb431c809aeb23f03c4902e625e036482b0632d9e9da5d646dcb, 0x14670dc03edbe01290c931076205b7e20b821d7210a7684a6ef6b063c57bbc3d,
    0x2ac4f4e11e996395fe4a2f093914065082f4007cbdb566233842dc1c0576af80, 0x2ab8eeca517eed66515c0649856c03c305a82cd4075b754bedc21dac3fec0a43,
    0x201039e2c0db908add3d25e1d4b31d54a5662e82e2ce14112ef32b82adc9d8cf, 0x1aa5ef43cafcf8974f73e8f641d9c809e8ceca860a1b1ae3e360285a9f58f057,
    0x1fc7a20ea1a8b177b330dd8576b2c64bf7ee0cc5c49e6367b57cf2115210ff06, 0xda3f4086a729f271b961b8cf510a649f09de5cadf82c921ae78040a61af2414]

set_option maxRecDepth 100000 in
theorem genWindow2 : window genPow1 0xfbdea556c23998e4 = genPow2 := by decide +kernel

def genPow3 : List Nat :=
   [0x1ca19925d1b9ad81ecc217875a5f004888f397da174e50cbc266816fe1004028, 0x21db1ffe86ac2a14d32866ab65bc1b7dbf2aa27852ba73ee100873e96133b8e1,
    0x1b7252e6f30cd94aafff8fb2bc5ca6512a5a499968efbc7a08501a7dfaad2a04, 0x25b39f11ea60aaf179770dedd3f136bb7d8dae417ca1fdc22442ba7dea423b5,
    0x197b84bac27c4a243b2ed35686154320e37f52eb305b269393d28e918ebe96a1, 0x2c3b0577484301e6adbabd8a214786497fd3aa5bbe1f947fd8460459242c0421,
    0x2085b30d0756d0d3ddefad921a112e52b1951302686e9b3b7b205bf81d1e78c4, 0xba854cf9ed1bc4e2ed38fe21175e0c00ef51069f72652852a891c37163b12c0,
    0x21e4e6b9d899e6bb8521299e63515c1a6503ca0fd4ed4d8a3cd08001ab152c28, 0x1e57e803754e81857e1a3599559be3998fbc4ea9d328d9dee65ab156813a5c62,
    0x2e641aa55884c0f3c1af874b50e691be84d1e305f25607c0b5d0066a94ce9698, 0x2c2e54daf0997e82fda1ca18f484d84d943d93db2385e02cd76cf1373294f541]

set_option maxRecDepth 100000 in
theorem genWindow3 : window genPow2 0x150e578c5084015b = genPow3 := by decide +kernel

def genPow4 : List Nat :=
   [0x2ac13f77a37c8876fa878e888a8e574173a2f4c2fcc8239827ea26c677110985, 0x513c0a767d0585b2d28ab61cca9849066637ade90b70b2dcfd7f07cc926917d,
    0x14226a970be716b6b9d8b231998f96f72de370caa5c01682e70e94ed2b21a98b, 0x2a806ce9bed19f4b858ba1df4716007a36fe88ce4aec3f76f74b419b75bb5b4d,
    0x2f72a39af9f8e4347bc4389a7ce7c6522f23271375d7d36219b24ad7f877c7ef, 0x170490e36faf74d4d52e3d584db12d627a60709b380d0ce48a6280632b8e1822,
    0xff9901bb4bf2556fd5dddfdd6c6e9a4a5bac71fc0b1d005dfc83029bed2d41, 0x7ca902e8b782fb45627a7766af188cb6faa2d47669a6ac22b63c62607af0e7f,
    0x1e677e49fe31b7eb18002f6782164af7165dd1d8b048f3d5de3f50809edc6840, 0x20c207fe5ad679a49b1908c9668d2f7316ef5b5743e07ff1c55d6ab9acf7c525,
    0x130e85c832b5b9152cda80ad42de62f60a76d37133341e24e620ae5a6e0ac94b, 0xff2261873290ba4af8f56e10155fb5460e4b27e5182ec64623bf8c31dba7979]

set_option maxRecDepth 100000 in
theorem genWindow4 : window genPow3 0xb37f601919667af5 = genPow4 := by decide +kernel

def genPow5 : List Nat :=
   [0x17e83ecd022c15c39e750674097ab6e35faf08be22ba57d5d0d89dbe1717ab40, 0x1aed4d5835f4a9891c55801696ab67666e8290ab94acc270a959eff7be18f1e5,
    0x2f57025058f7744c7e99d6238bf79e72ca6f17fe2b38d133b39e6535044e3032, 0x84267ca987e1a086e877704a479407202ffa43c6032db9c1b68b3b57d57c4a0,
    0x3022455b7a432316d067e67d9642b77df9b6fbd712f691c224d2dfb0641029b5, 0x259a6e1473c51ff1cba9db99f6c8f39fd0afb2a8515ccecb73557aca3d1e2251,
    0x26c91c3f921ffd8f761c29131346e212e878663e93f0b4115e8fa0033d75dd28, 0xbe8c866854455dacdada269e85428902318787c7daf56a94af5a16b37038778,
    0x2d3a723f178c4cc3994932a832f26fb3fb9a9179ca3411c237c86b8bffb612c1, 0x22a3367afb4cdef173f334e9f24e7d7b24c06513d3f974e4ab75667f5b40e87d,
    0x1620a1e9d25688cc55050f9d22b3c672150349345dedafd3033fc44e86258ef5, 0xb578c9762a56f0f79191993ed372e47810784cde48a5cef352470e5cde26c85]

set_option maxRecDepth 100000 in
theorem genWindow5 : window genPow4 0x51c6d1aa5afdd17 = genPow5 := by decide +kernel

def genPow6 : List Nat :=
   [0x304e38ccadd9c194fb1251c86550183f6e82442b835ba264cd5f46ae1e29fc03, 0x105069c1661ab82f84c0df83bc0e62b46a8616d8e425310bde2de612e790942e,
    0x278162601e2e34dc85655bf886e758a68ea26cd8348a63ac05652efde6fd2680, 0x8149eb3d62146cbf5e6401e91653451efc2f4a5b1849e86b2cceaeb29cda794,
    0x269f6a0ab2c2df18f8ff6bc8ecbef5726465d000ca1bbf872a4ef293a4c16b6d, 0x1d23114c728e5261fc8c71c7f6561a93e284475af21db9ce744fa0e86d7acd8f,
    0x2393acc68b49de00be10164b2cb5172f9bf6fb9acb29ced08e8cb25e2da929f1, 0x21dca76a2642d4e9efe90c135ba0c965b6a99437569f820905e8e5a83b85601d,
    0x1419450e7c0e73d0b21845e3fe1c8f380e1825431fa03b3f8ea8e3befbad39f3, 0x2edf26357bc4340f7ddf2ea4a99ef4f85dbcfa264581ec454b0ea74db39e4a70,
    0x17d40eedc2cf43e088a0798bdb9ccfb6caa2a859856b5cb6c6b07c20498aeb0e, 0xb9ddf9871ad14ad059a074a7f2d925d3a4901210d3cf157e84c4afdc9414ee2]

set_option maxRecDepth 100000 in
theorem genWindow6 : window genPow5 0x7409206c82d647e = genPow6 := by decide +kernel

def genPow7 : List Nat :=
   [0x23df7135aa916c85217aee6fed4da692700e60f1aa7db33cb5aa014170725bf5, 0x18e1e01e771d74cf11350f80a9d97afc4fa293422b25bffead21004cc18f3104,
    0x8598d39f18d0e7996b58f86c6cc3fd43b2852e2c2715b6b0babe4c113d20cf9, 0x1e8b7d83cc2380d0ef6f2bfed43cfed5239f9a8dc67064f8b96ac7b5cd65a648,
    0x1e8907b58560c55db900623446927dbbcc58eff5702de7c79833426f78213aa0, 0x17362ede985e421029dfba077560cde22a8a1704cb10f31d3279cd31092a30f2,
    0x1022d52317749789e510200570789d59e4203a0318536457b7532dafcbe337f7, 0x1c3cec33f17d08336dac9890550659f52d778d637120a591712da3c614d1ee81,
    0x10407e99ac653345669e7af2b9d4e6cf2f78243778c70a2c7f461dc0509001a2, 0x26ab77819bd2bc76d1ac54eed278d22de1986a9351f6781c2c42f4569c1fa47d,
    0x81bdeb889c40715b48dbd504251f3d84c22f23d9b997cdce8e9b787e18f944e, 0x11ce945d59b2685c1b1fc1a5d61ddc1a3c70e7ecf3da0e9cafc08ce3ff68a66]

set_option maxRecDepth 100000 in
theorem genWindow7 : window genPow6 0xc2d1ea74a391cae9 = genPow7 := by decide +kernel

def genPow8 : List Nat :=
   [0x2a6cafce3abecf923b25e06bb74a8365c2522ba4adae877e1ef55c52e12db8ed, 0xa9cfeea1457be7170576bc96c299be8c296b288cd93cef2a21c8fcfd3f5fa98,
    0x10ed16455a0161475b5dc1b96d1b344f5cf44196c6fa2fca8560a13201374b1a, 0x1c42aec66ea926d0379c317afcd30061198b3ccd9c41981c18d13edd6a75e189,
    0x2705a1f3cb503cee17fd28206f85d9e72bec338d8963ca970d82a91066f4448, 0x2ab8b5efbc83ed242fe8d36b2b82f6d119cfeb5eaf98a2853786d916684ffcb7,
    0xcb53452c7a956025a2a5a0bb739e42174ea8c8cfd3299441163c334c4de95a5, 0x2aa6fbe89bf0a576df5eed04802561506e1700562898e54b6d48e6066efb1ed7,
    0x2fa5f62f5e246d42cb1df5f32e6305b9b70ee0f7982fb73c4194a8e9a6c0f20b, 0x207728ee1ada68f536942f893119990ad9e54e57bf49df5500692f8408c00d21,
    0x62f3d46f2bd0089d37db9ad3de1a8caf234d80427293c497ebe9a551b8f0f23, 0xfe05806abfaa880288cdb70c26f95e80227e2e76393e1435cbbd32bb92156a8]

set_option maxRecDepth 100000 in
theorem genWindow8 : window genPow7 0x1d2e5726e39276a1 = genPow8 := by decide +kernel

def genPow9 : List Nat :=
   [0x22dde88c0fe428efb2e13db8db433a9bab407ce5568b684e225c340aa3abb4e5, 0xbb06e44647eca7f31940e28769e4f1efb34651a35caddc80c0981c00f326a83,
    0x1a6e93bb93f6b3e7694a1170594edcb2e40f352d90691911aa6b9d6270c32228, 0x2821afb369dd3e06dd322b911a811a88282c55e733815b162996e4a945940bb1,
    0x2e243fb3564cc15b4dc4399ba2f7526b9c4c8d62e6decf4e13d4fde2e667658d, 0x13a74443f1e09766c40c37ac7f4e7c7f15be55e35d8a4ceaf0f8012cf0c377d,
    0x301687f307cf275230d56badcce4424d9964d10824c7b8031affdd9e1cf46c46, 0x79190d83d8e2cf626abc8208e17f26ec833b6e010dd15b0f1cd90c97d6668ed,
    0x400124a2a9da0ef5ad1b4aa4a9bf837a3c8067bfdf7b0a1ce50ca585fdb2a1b, 0x1449786a39f43fbd1b784536b918736130a3d1d9351180449ccfb482d21e8ebc,
    0x178ecbbe3cba09d57d943be56389231d1703907e5d2a18e7889e8dd02ecb01af, 0xc3f08bced2320db4ad675b16af866e0278f35f9dd85f2a47169d66135ef994]

set_option maxRecDepth 100000 in
theorem genWindow9 : window genPow8 0xca64c0fd82eb59e1 = genPow9 := by decide +kernel

def genPow10 : List Nat :=
   [0x2ea6079ff001e9ffebb74888ff98bf78a4491cf9c0b1ac9579f75be313a3babc, 0x15c8bfa0fc4ff985b9c8bad1d583d6203efd9fbe35d333ee31fa557adedd832,
    0x2f70e36b948cf59fcdc9936d287e03cf38d6c71af92c9b8417c45b8c79cf1e12, 0x1867bff483b474e7310a834a840c5a50d6b77a78d4d7a2afaeeb490e849e6398,
    0x8ed0c906e7d6651916254a46c98c82deace7d57fbe1cd1731eb02ee60f6168c, 0x18af06c699a26ae4cb793dac695e436a9fb645b6771279c784220c4c3ea7ac17,
    0x1a95aff04f7f28782b1d07e8ca9b07657df20871443bad4add11b5c238421b4d, 0x1fd36f55c74f21088eb4035e52bb6fdb564b9070c9f8a439100bbca26d7fb862,
    0x1ff0fa90b84b9e87058a5fc24d688d8a6d5d3281993a9590b1540e241215ff75, 0x261673b4620a8eb13178f46bfdce870c1e875681a6937e0ef217c3a2beb746a4,
    0x22807895f84a8d7517ef40d58ee42cb93159366db3407edb9666148ee4432601, 0x25ddbe7c372bcb54fc38ef9d238558b5dc94d341c0599fd1aa2f0763f057f34e]

set_option maxRecDepth 100000 in
theorem genWindow10 : window genPow9 0xdf6d76bdcf51b0d8 = genPow10 := by decide +kernel

def genPow11 : List Nat :=
   [0x3014798d5ff47779eff2e12d909d1235e24669cfd9118f0ebeb1b963f3a91d81, 0x1e417568209cf3e4a381dd2922f606c7331b7cfd41de48c54101735d4a40e032,
    0x2b00aceff147f9bc0b29d5e6d3d64af2c7c1ace00514e6a113e1193ca6b55d39, 0xc9e4211087801970a60e2151f825f5b4807ac2960e7762113ca1b2700afa91e,
    0xd1838bac7f787cc3cdbd49b1e953f4fdbc527bf91898021c84d3bf4a5bed5e5, 0x2729c678408cdc96375f31af7ce2cb4dfad16528499a7888427060424b9947ec,
    0x239828a34ab2f3e62d770aaefe062507f00e906a2beeb2e9e6708dfadc4b4bc0, 0x2c053d68e1551fdba802411dccb70d707dc0e3ca5a936ec478aff02f325392b1,
    0x1d9155e5dbc0f18c4280f96bd66bbc5625d90330bd26bb519ba5a108307c6e3a, 0x1056cba4656c024a9a96bb6a23f4393fc1b32942355f1d145af6b53de5b5c1bb,
    0x18b19afe2f21dee2a3751321c709b5e3b2e321f1ee76332abdb7af1f7f789bde, 0xafd51cdbc0d679b01cf269c9098c6cd2af54c531bd4aaabdc155b0f4662ff6b]

set_option maxRecDepth 100000 in
theorem genWindow11 : window genPow10 0xa733cd65b14bb3b5 = genPow11 := by decide +kernel

def genPow12 : List Nat :=
   [0x1e41bb86f249107555cba1819cc16b3f8a2fb6b43d2d243e14ae6a12fcf4d323, 0x2b4cd651d2e66b719ea4c812ec7d79fdf887404511da2c35090ca82d5c4ff6aa,
    0x28dab155aa9cd2823d7e55cb98d1e9213af0acc3de2dd9b324a2c5975a33054d, 0x273512dd2502773e91a4b6a65307542b2e89cfaeb7f9a43b1d87fd28f58e9a89,
    0x28ad3840526f87fbbb7aaeb63e6ad8865d694624a45cb69cccb91110cb32e2a4, 0x1d865765d6f2c6a357ebaad01bd3c6ad757427f373b83a6c8370823a253dbe13,
    0x5bae1f4ede49d1845a67afec278d3d3dd02cc75dd78181a1fed90dad29d3764, 0x22aeee5d9497723770360a69a5f4b2ea05a180b3637feedf818d879699058eca,
    0x1385f1033127d3788478143b62c6d439a511076c6ddbdb6627cfeb828093545f, 0xfddcebdc68197b22315c63a8be30e6b2595bda546283d6c2658e0c7fc7f8317,
    0xf805f96575a10c23980a9e65665796a7f96bfe98b417fda8c5cd5a780d012d, 0x226f9d9b16b17db972d857f479cb45d2d1d6ee80ba44b300b86224391b1217f5]

set_option maxRecDepth 100000 in
theorem genWindow12 : window genPow11 0xc901bf1887c6042c = genPow12 := by decide +kernel

def genPow13 : List Nat :=
   [0x15d79125f87cc01ad9f85a158d627c66431d4d6b6911736bae1dbe113ef82167, 0x1be1d12bcd6c2a7cf7aa0760e51c2cc80b82e66322116c382d0a57ebbb83bf07,
    0x216de53dcda6ff835539aa04bd785a9d76453ae22b2ab6a935915d8eb911bf92, 0x44414595df046bcc2efbb0df70494e8364a6ad2bd16fec08de79b24c7ef25ba,
    0x22c6454ae4bb31a3b68bf703938bc38fe7bb2ac27b911b474f305f9408bd9633, 0x263f1a1abf4bc13b3be375437dce6ad05c04ed3505f04e802192194e467f4505,
    0x2e5ae282d6b401ac77b72a1c101c2e7791345aacf39d39d80f1515807343ee75, 0x156dc96e5d5fa385b098407c1319d04eb51e86817a0eb9de44a78afdd643a421,
    0x13298600816217abcf4b3e9ede16a5c10d0e8c91f92bb406abe743741834ad1d, 0x209321fe42948d1260f102d69d6c3d4e8b1009cd77201af3f9c120d51466a46b,
    0x203a00d128c8173508c2e9d314d4884f5a7f6ca8df8220e64224dd8db43e270a, 0x2e55b153848012b983c3625e2a760374f6407eca9d17d189493f62a0d943782c]

set_option maxRecDepth 100000 in
theorem genWindow13 : window genPow12 0x758e4408ecc9952c = genPow13 := by decide +kernel

def genPow14 : List Nat :=
   [0x386986466e27f118b845c2a4eab9abb0d1256d5751bba391b4420f8a89527f0, 0x22d75671e60b70bb94f4aa8478f66471d3e0831f40f854430e5994723b79ea6f,
    0x1117cd276eba973b83d28856ed4de33b7e61e2f7fe286aa1d15259b1bb3e816f, 0x2b2918f75e5ed22d628edbb2ac752e8fafde6a830f004f587e8a0ae83a7aa1d6,
    0xa04548869938edf8bfdadc4147cd74bdf1f25fd60ebd043e5fcf80ea4978a1e, 0x14d1f6317d5a7d02822ccea9dd0b849fb919944983a7b68b84087fd0c04dc723,
    0x14852a357004e6d3f458d24e66496ee49f1546c48d8a0a22b6fe9c7a7e343de7, 0x16d1454da9873114b8b734239b1d1e48c456429c7447bcf35c863939b4ef8936,
    0xaffcf381c2a36005edbe266ec9c85e73d9dc73e407a37b30909889dc11194a9, 0x8b65eb678eaed00d7c3adb2b09edba947d7b02a9bc496ac5dcf2370dc49e810,
    0x2c5bdd2a8df5d1f944a15a26011cc710984759ab8747c7dc59de0c700ca9646e, 0x20fb13bcfe1775ae565fe6bde82fb949f210d98f0a02bab7bf4e9ac52b2dc57a]

set_option maxRecDepth 100000 in
theorem genWindow14 : window genPow13 0xfcc420e48c3454c = genPow14 := by decide +kernel

def genPow15 : List Nat :=
   [0x15ecfcf77e1508268e299785c9763556daeabfe1eceff544bf637c570f292c7a, 0x2ffb9c35d325cc23cf8e6564f47cc921a94ad7e74369f1e0c5e1dde62a73e7b5,
    0xe6f181b9298120ccc5e6716faee0e93cce9a023e3641bcf377c32d6d45be642, 0x194baad8d9b6c53f0be33c65447805915ff9af09b6f04b533b5c56011c0a899d,
    0x1a91d2d79d0630692f676bcf01118d06b776bb6bb14fd3314c434b319ddf068d, 0x234db5709e02bc8f9938e1b4d8f4b373655709692a7dd364a9b76cdaa930285b,
    0x2123de9b18b13aef031dc91f5b0ec05ac2533b9680b5166bf2a628120134de17, 0x1a06b5d52141d39b66c4f85b10d3a4ffca13c989716a4645fac918c8eaa83f79,
    0x1489eba2ad8785bc562b74607000abb9bfcc2189396d3487649dafd1cf1b7a6, 0x150513cff69e20b00554da94b661a5218bb3c668d0d6ef119ea54a747974d8fe,
    0xb13a989cca97ee53d60ded1dea296b29ee7466019966c8e895465f30667038a, 0xf4583862d7c30ea9f1f1e91b82594ed5d3c3e86ec3f089bcdae76157f205035]

set_option maxRecDepth 100000 in
theorem genWindow15 : window genPow14 0x42ad1f5e50ef3644 = genPow15 := by decide +kernel

def genPow16 : List Nat :=
   [0x29bc13f93026a29935c2e6966d330fda2c23bf6d355736d7ffb83536a5a2043a, 0x2fea697eeba6cd30676dfd07cbe312838063d97435f3ea04b76c16481748481b,
    0x14384edd7ed2b0e1c7759adcf505cd696326cfce5854b4895dc45983a090b1c7, 0x1f44a3d69095c8e22c26638ef2f1dcc79c94e1c415230f4d2018de77c44c58bd,
    0x27aedd7b5c6f45e76ba7c105d17337dadfea8dc89c60bf16303e469550db3f18, 0x1a04e6d4243909830a9ef4e738d78a477b60343761e540d23795b607c1a18413,
    0x21c15452241e7b9c76615dbc4c7e66f279002bc6b358118ca0680b05fd662f3a, 0x188436ba338fdc6a87b40ddd3d9e3626e94a496298a2c0e9d4c38d691909a19,
    0x119a87894d580438c0a1fa7cd95a3a52d97918575fd3ce5b9ff42c9cd75af768, 0x107d1676441b95205043432cb781cf21b7842e513f2783f49503d4c73c2f422,
    0x190ab91f3b9d78f8a402200e49cfe0868750f60bee5fd917ca4b7a4fbcc1187b, 0x1f20d86a35b8ed097d156416b20a83f66e8a8f9cb2bb48bd25d203947ec18d5d]

set_option maxRecDepth 100000 in
theorem genWindow16 : window genPow15 0x94f69f6b84e09bf6 = genPow16 := by decide +kernel

def genPow17 : List Nat :=
   [0x10dfdee1a94c3ba48e2a15aeca003db5db5796072be1bce2a3df571bd5167e13, 0xc6161fbe6bbe0941ad0711c4bcab07cfb45fa263cbf127bca999ee82a677655,
    0x23f6fa3e5f64feab9c7c60c56cdea39336daf0eddd78b11e3f908cb29408d8dd, 0x2180874d86879a55f66ad0b61213f3de51b52544517eacc5b0b8b1308165d86a,
    0x1c1d49dce79c50ca4df43450d8b442fbf791b4ae947863cf647031c94add9924, 0x949d9fe78109f30ee0294526b76e6ae12dca30e7b1134468fc6479a46f5c44d,
    0x144b131df9d7a40de5deb2c809ed4d9a0e66de0b5545315f64d46328c6dd57ff, 0x1e1e22d0f914b73f4729971dd8bd197bc9a6f01ff53f303f79498c9dc1f08e5f,
    0x2f95626efa1dc09250a7be12f1330484075fde0142c42947ae73f2662c94621f, 0x67da0d15b730f6e7d1a7069a1b4aa02fec1ea758b4b42f9168f6ea77c1aaaa,
    0x298e584c241d51aa29c3d79d481d95b2091b0e5780f6cb8eac402722493f35b4, 0x2c32bf7a5185773f259c49cc4275d51f1269988c3bbd746cf4596998603088c]

set_option maxRecDepth 100000 in
theorem genWindow17 : window genPow16 0xa8ce2533be36c7a2 = genPow17 := by decide +kernel

def genPow18 : List Nat :=
   [0x2c40f47debbcda80a1e53abf2593721f23ee8649c62b5b8a3382d9906b79ad1d, 0x2de6cbb81225566a5d60c376139da324fbaff7b0f954a26f5bfc3a3bd92555ec,
    0x264303aa78f2d36e9fd5eb6278db771ebeace21ed605fe4f1e3066119bba468b, 0x94d8772252bbb5b69310b47d2f9dec4c3b1dcca1439f092c53651686afd6c99,
    0x8c2c6e160a9440e1203c03668df7abf4cfb0b70158c0d1d9926e3b00331867b, 0x2d90d32b6c07724864799a68b0340e90d87c4a6102cac379f7ab3ed2bb525553,
    0xdc73155574a293fc8abef0ebd53967409b676dd4afa58aac79196a1f65f0ce1, 0x289be0f4692bb164a774a2b06e50470483e8011e8e1993017e0f2a87e775a7d9,
    0x1e59d74b673aefe0e3b93ee027af2cc354c4d86cef4e7087ea9318198e4bd6ef, 0xf43826cf9829dd6501dadea144c56a138c02740bd902dfa699e529e38d4e119,
    0x1ac994b7c31c66b18f2f8fd9fade51351e34e75483a0d76723ca686bfdfca12b, 0x1c87ac20f70d0894746781431b354db9d0888cfcd75525f157b3b5e83f5043c5]

set_option maxRecDepth 100000 in
theorem genWindow18 : window genPow17 0xd1138bf54d5bd1d4 = genPow18 := by decide +kernel

def genPow19 : List Nat :=
   [0x82bd698d4cf3f286fca355f6e64048210002f2d52eb96fdda9d849f2208e8c, 0x21539db234180899414a2a5cf184c97cd2fe2fd82fef69e2fe2f9c269bea793a,
    0x15e3788e5d27da343b524d4e20f980706abe293fbb2694dd4f1d79d873261961, 0x2d8a259ef705d8ccfb16312e00ae6051c0ac70a05d6fb54a17457d9ddbe7c546,
    0x15f49d02a53596eaad2b3948b15535b0cd9f474b6caa64d390d1d7fcc31cf6c7, 0x18e079aeaa0ca30d66cd7788c1e794a0cf2fc77544c488df6f36646a4d03a61b,
    0x1b4fa6d8f798e1b2e83327c57a171787f7081b0b953c4bc499f67fd9762c85aa, 0xd08bce284e60d898169c23bd03301571b51246e7fa8f375425e2cb9153af5d2,
    0x2135ed13027fc94f9a7f70653c26402141722b01d848d30fc43a87fef4eaf683, 0x11ac11090bd8e6adfb26372cc133c51d28cc248bdf7946408376fe8efaafb0f8,
    0x774159cdfd21760f531686a2a9e5adfa83c0057181f7e05fe578c8fc88e91f1, 0x1f988c265ee12eff1d07191be5fd320e86f6ec0d500b2525b52668d047d1e350]

set_option maxRecDepth 100000 in
theorem genWindow19 : window genPow18 0xa5635f1596789051 = genPow19 := by decide +kernel

def genPow20 : List Nat :=
   [0x20adedb4368f44488e65278c1cb24606bb78a690f9125a9507fd26226fdd2f1d, 0x33a448507a3d17540a37b9e9181ac4519d6420d557330640028af23b0bc950,
    0x1142d5dd43123e8b8e9615cc2ce44d1c075858965036389629b6b2aa537235c6, 0x83a3a17477b297c9c0ce85eb6d730d83768deae080806b0ff663395be8badae,
    0x1add8356408992bfe3f72f984c28e431ecfe2579a1bd240898006b58435b46b2, 0x170e27c7c7ac97e951d01a204b988154d525b513b2696bf6983ca7b028655e75,
    0x3645ee50a1f147a111fc4a472f6d3d1736786a04a8a2bb4ac6473cb0d2d6c0, 0x1c289714248a3730c2e2489e7cc7ef8a31fc422092e027a7c0966904bfa01e06,
    0x2e6b2c9221c7be5ce14f216096dedf8fb3dac095d92d9ab5342d2fe4cbfb81aa, 0x22a04e2ecf0684fb600902af770de72d23471d99f251dbaa923ce5f68715e352,
    0x16da388a73189d7f911f634b108da701b3d31779c2a654eecb524e8db011d056, 0x6c124f4681ae061a09b688a2befec5d7acda75b2c8834a54b9107b489b8787b]

set_option maxRecDepth 100000 in
theorem genWindow20 : window genPow19 0x5250a54036e3f812 = genPow20 := by decide +kernel

theorem genPow_den : Eval.den genPow20 = genMiller ^ ((qN ^ 6 + 1) / frParams.m) := by
  have h1 := window_den (by norm_num) gen0 genWindow1
  have h2 := window_den (by norm_num) h1 genWindow2
  have h3 := window_den (by norm_num) h2 genWindow3
  have h4 := window_den (by norm_num) h3 genWindow4
  have h5 := window_den (by norm_num) h4 genWindow5
  have h6 := window_den (by norm_num) h5 genWindow6
  have h7 := window_den (by norm_num) h6 genWindow7
  have h8 := window_den (by norm_num) h7 genWindow8
  have h9 := window_den (by norm_num) h8 genWindow9
  have h10 := window_den (by norm_num) h9 genWindow10
  have h11 := window_den (by norm_num) h10 genWindow11
  have h12 := window_den (by norm_num) h11 genWindow12
  have h13 := window_den (by norm_num) h12 genWindow13
  have h14 := window_den (by norm_num) h13 genWindow14
  have h15 := window_den (by norm_num) h14 genWindow15
  have h16 := window_den (by norm_num) h15 genWindow16
  have h17 := window_den (by norm_num) h16 genWindow17
  have h18 := window_den (by norm_num) h17 genWindow18
  have h19 := window_den (by norm_num) h18 genWindow19
  have h20 := window_den (by norm_num) h19 genWindow20
  rw [h20]
  exact congrArg (fun n => genMiller ^ n) (by decide +kernel)

/-- Conjugation changes the sign of the odd powers of `w`. -/
def conjList : List Nat → List Nat
  | [] => []
  | [a] => [a]
  | a :: b :: l => a :: (qN - 1) * b :: conjList l

theorem conj_nat (n : Nat) : ((n : Fq12 FqV)).conjugate = n := by
  rw [Fq12.conjugate_eq]
  have : ∀ k, (n : Fq12 FqV) ^ qN ^ k = n := by
    intro k
    induction k with
    | zero => simp
    | succ k ih =>
      rw [pow_succ, pow_mul, ih]
      exact map_natCast (frobenius (Fq12 FqV) qN) n
  exact this 6

theorem conj_hom : (∀ a b : Fq12 FqV, (a + b).conjugate = a.conjugate + b.conjugate) ∧
    ∀ a b : Fq12 FqV, (a * b).conjugate = a.conjugate * b.conjugate := by
  constructor
  · intro a b
    apply Fq12.ext' <;> simp [Fq12.conjugate]; ring
  · intro a b
    rw [Fq12.conjugate_eq, Fq12.conjugate_eq, Fq12.conjugate_eq, mul_pow]

theorem conj_w : (Fq12.w : Fq12 FqV).conjugate = -Fq12.w := by
  apply Fq12.ext' <;> simp [Fq12.conjugate, Fq12.w]

theorem den_conjList : ∀ l : List Nat, Eval.den (conjList l) = (Eval.den l).conjugate
  | [] => by simp only [conjList, Eval.den]; decide +kernel
  | [a] => by
    have h0 : (0 : Fq12 FqV).conjugate = 0 := by decide +kernel
    simp only [conjList, Eval.den, mul_zero, add_zero, conj_nat]
  | a :: b :: l => by
    have hm : ((qN - 1 : Nat) : Fq12 FqV) = -1 := by
      rw [Nat.cast_sub (by decide +kernel), Eval.cast_q]; simp
    simp only [conjList, Eval.den, conj_hom.1, conj_hom.2, conj_w, conj_nat, den_conjList l, Nat.cast_mul, hm]
    ring

theorem gen_final : (conjList genPow20).map (· % qN) = Eval.mul (Eval.ofFq12 gtGenerator) genPow20 := by
  decide +kernel

theorem conj_pow (f : Fq12 FqV) (n : Nat) : f.conjugate ^ n = (f ^ n).conjugate := by
  rw [Fq12.conjugate_eq, Fq12.conjugate_eq, ← pow_mul, ← pow_mul, mul_comm]

theorem gen_eq : genMiller ^ ((qN ^ 12 - 1) / frParams.m) = gtGenerator := by
  have h := congrArg Eval.den gen_final
  rw [Eval.den_mod, Eval.den_mul, Eval.den_ofFq12, den_conjList, genPow_den] at h
  have hne : genMiller ≠ 0 := fun e => genMiller_ne (by rw [e]; rfl)
  generalize genMiller = f at *
  have e1 : f ^ ((qN ^ 12 - 1) / frParams.m) * f ^ ((qN ^ 6 + 1) / frParams.m) =
      (f ^ ((qN ^ 6 + 1) / frParams.m)).conjugate := by
    rw [← conj_pow, Fq12.conjugate_eq, ← pow_mul, ← pow_add]
    exact congrArg (fun n => f ^ n) (by decide +kernel)
  rw [h] at e1
  exact mul_right_cancel₀ (pow_ne_zero _ hne) e1

theorem pairing_generators : pairing g1Gen g2Gen = some gtGenerator := by
  have hm : multiMillerLoop [(g1Gen, prepare g2Gen)] = some genMiller := by
    have h := genMiller_some
    unfold genMiller
    revert h
    generalize multiMillerLoop [(g1Gen, prepare g2Gen)] = o
    cases o with
    | none => intro h; exact absurd h (by simp)
    | some f => intro _; rfl
  have hne : genMiller ≠ 0 := fun e => genMiller_ne (by rw [e]; rfl)
  rw [pairing_of hm, finalExp_eq, if_neg hne, gen_eq]

end Kogarashi.Tower
