import Verif.Groth16.CodeVerify
import Verif.Tower.QuickRun
import Verif.Props.CurveLimb

/-!
# Two runs of the Groth16 verifier on raw limbs, evaluated
-/

namespace Kogarashi.Groth16

open Kogarashi Spec Tower Curve Kogarashi.Field Limbs Props Tower.Quick

/-- Three times the generator. -/
def threeG : Aff FqW :=
  ⟨montOf ⟨0xf2d355961915abf0, 0x9315d84715b8e679, 0xf40232bcb1b6bd15, 0x769bf9ac56bea3f⟩,
   montOf ⟨0xcdf1ff3dd9fe2261, 0x319e63b40b9c5b57, 0x554fdb7c8d086475, 0x2ab799bee0489429⟩, false⟩
/-- Twice the generator. -/
def twoG : Aff FqW :=
  ⟨montOf ⟨0xd3c208c16d87cfd3, 0xd97816a916871ca8, 0x9b85045b68181585, 0x30644e72e131a02⟩,
   montOf ⟨0xff3ebf7a5a18a2c4, 0x68a6a449e3538fc7, 0xe7845f96b2ae9c0a, 0x15ed738c0e0a7c92⟩, false⟩
/-- Six times the generator. -/
def sixG : Aff FqW :=
  ⟨montOf ⟨0x2afe3d5b8c684af9, 0x56719215d3b32a76, 0xe0792fd9e7927798, 0x9f4ca411a3f52f4⟩,
   montOf ⟨0x9d0f64583474d9c8, 0x5273aa59429e2692, 0x5d4366ab22e4ad33, 0xd8ef3d795acd4b3⟩, false⟩
/-- A key made of generators, for one input. -/
def genKeyW : RVKey FqW := ⟨g1GenW, g2GenW, g2GenW, g2GenW, [g1GenW, g1GenW]⟩
/-- A proof the key accepts for the input 2: `6 = 1 + (1 + 2) + 2`. -/
def genProofW : RProof FqW := ⟨sixG, g2GenW, twoG⟩
/-- The input 2. -/
def twoL : L4 := frParams.fromU64 2

/-- The words of `badPoint`. -/
def badW : Aff FqW := ⟨wordOf badPoint.x, wordOf badPoint.y, false⟩
/-- Its opposite. -/
def badNegW : Aff FqW := ⟨badW.x, -badW.y, false⟩
/-- The opposite of the generator. -/
def negGenW : Aff FqW := ⟨g1GenW.x, -g1GenW.y, false⟩
/-- A key whose public part is `-R + x R`. -/
def badKeyW : RVKey FqW := ⟨g1GenW, g2GenW, g2GenW, g2GenW, [badNegW, badW]⟩
/-- A proof the key should accept for the input 2: `R = 1 + (-R + 2 R) - 1`. -/
def badProofW : RProof FqW := ⟨badW, g2GenW, negGenW⟩
/-- What the loop over the inputs gives for that key. -/
def badAccL : Proj L4 :=
  ⟨⟨4740780809967951088, 15275578410970563638, 5961166692147151008, 2579001062762031761⟩,
   ⟨3826648647727594573, 10589284997816342617, 8449836957989582845, 2062994161297285967⟩,
   ⟨244261768478446054, 3116701875758233270, 7508972413407616076, 2754414198612923999⟩⟩
/-- The same as an affine point. -/
def badAccW : Aff FqW :=
  ⟨wordOf ⟨7510983717077835960, 3312475811131917678, 2256911491761439285, 1056242939938005421⟩,
   wordOf ⟨16070452121780517931, 3466894734456414215, 15111502504107001906, 3119976294301966496⟩, false⟩
/-- What the loop over the inputs gives for the key of generators. -/
def genAccL : Proj L4 :=
  ⟨⟨17230530912971526029, 8268823282455237371, 262596812069356976, 283168152738812626⟩,
   ⟨9983044891821905479, 13890393834841033235, 10270120038751709720, 233977849004817762⟩,
   ⟨1531787948430247483, 11480727895106879349, 7033688908358708643, 3391148861370623702⟩⟩

/-- The Miller loop of the right run. -/
def goodMillerN : Fq12 (Option Nat) := lits 0x24b85e0d42c0b8e737fc1c14a12b67a1a2630169286efda4696886f59e4a4234 0xdd8100266cc139795851c2c58a578bb0eebf42e0a46618b5548f16ee4366eb1
    0x1f5ef9adf8e2892920fe135924e7d2401a556f413830c5c8a759ac535c27f256 0x290bf2a5740f2257e9bcf01eba99e26a3a6758509562b1a4e79bb04baa5934e3
    0x3a1e70b1ab2e5b88c73d71a4034d8cac65feb5f44c007c240a9cd7c66b60a5 0x27f8de9f0fecadcdc533014288d23f673760ad4b9992bc4fe7e3d9102395f33b
    0x28172e64551cffada2b2118d2f19242febd7218dc8444e728f4d685c4f022416 0x29639c8654e8a715a3cd672b5eb9ecd97f9ca77a4950eba5749ec6baaef1a56
    0x28c7b90ea79bb5c6911fac05dc0f5f2c3aa292aa1a38450e40868f13f7428840 0x245fb65ad787f67772e0ae00da076bd81b74570fb6333a619aa601cafd77e7f9
    0xaee79b77e3013bf29aadce11a4b39a06d7ed5c6e3469e787349cf39f47b1729 0x29a591ced165c8dfd325c9206af98877199a7d1cd3554315179b0efb4409d350
/-- The Miller loop of the wrong run. -/
def wrongMillerN : Fq12 (Option Nat) := lits 0x23bba12ce61fcb55de981f8ebcb4158168095210032e03bbb53713c08de9a9a 0x1cd7a88aacd3fcaf5bdf37f4025dde2e3b666caf623ce2a7ce03d699e45f9ae4
    0x116501f5fec2033e50734d4383516eddd3e8b61d80afb4be84ac7ff05cde0b9f 0x22babc032dd4792826812533110b9ac5e4378dc6e6644f232403f738076615f5
    0x169d92ace1ef8a264a23818f07a1f33e860e34d2842cfd95367cd51fa3f92f5a 0x29fd8926f72eb010dc7e1ef05249f143aed6ba4434851b2aa0f156568c90ec1f
    0xca22fc0448beb61424cb55d9bf8a3d4909f94a1b1989f3853bace3d7e989bb6 0x1ffea6def560982938d2021c767d64823de307fbe1db61a76285de351dc1a028
    0x20815e11bcfb4f6a3fba2ba537651a494f573b72b6b178a29ebdc6bfe5411b73 0x62b108dffb7c68da7e5f22ce9bb3ee87192198791ac32e7ffa19ffc8a22b41
    0x1ef3bf7341079ec0679d0bc1a5164cce0f63c4a27916d1297df4bc85e5163c8b 0x11aaba2ee3aadd9a2af1c7b2205c2661519d505cf142d45422fb27b66bdbea32
/-- The pairing of the wrong run. -/
def wrongPairingN : Fq12 (Option Nat) := lits 0x224b49159227d3e037b7bc83a513650240a0a72bba2f716478a86bce92371386 0x14399f8587ba9be8b9c7ad93139d45292069fc3ecbde2a986198ac0387e119b5
    0x15e005cf98ba8efa54f9eaa9fd7e2f2c036f756ba8bd368912c303a957fe8d1a 0x22f53adb49f8e5f4a927699fdc0076ce4ff44bada086dbae7f8a15d82085ea31
    0x2f9653b6bf799d526de5f6a12b24100b799cf7db6f3996764234acd88ee4a1ea 0x434f23a0675f9078f899f1008ee969583f84019e95ad45016459c03901a08ce
    0x2e2a56bbb833f5d01101589ab29b2c996f55f8af3397ebbcbc3d1d0d7f2f68b7 0x21fc71ca4ffae0f22f643165e0ee2041cf8bda188e5656b4340cf1dd93bbb217
    0x1dfeb13d8a12f0420f75684018aa79541457ec982f67cb0490323030a8a34ac9 0x1c082227a3ce8b72167c495ff1ef437ec325bad48e2572ba2127f52bc5876518
    0x8737da9e9bb7780de70d1b564a7a90400c230e60bbe3573c986cd9ba695c9fd 0x33d0e076c1749f09bb90b5a897ff021ad3ca9a3594e73f2769b06c2c8875766

theorem good_miller : (quick sqW invW).multiMillerLoop [(numG1 sixG, (quick sqW invW).prepare constsN (numG2 g2GenW)),
    (numG1 threeG, (quick sqW invW).prepare constsN ((quick sqW invW).negAff (numG2 g2GenW))),
    (numG1 twoG, (quick sqW invW).prepare constsN ((quick sqW invW).negAff (numG2 g2GenW)))] = some goodMillerN := by decide +kernel
theorem good_final : (quick sqW invW).finalExp constsN goodMillerN = some genPairingN := by decide +kernel
theorem wrong_miller : (quick sqL invL).multiMillerLoop [(numG1 badW, (quick sqL invL).prepare constsN (numG2 g2GenW)),
    (numG1 badAccW, (quick sqL invL).prepare constsN ((quick sqL invL).negAff (numG2 g2GenW))),
    (numG1 negGenW, (quick sqL invL).prepare constsN ((quick sqL invL).negAff (numG2 g2GenW)))] = some wrongMillerN := by decide +kernel
theorem wrong_final : (quick sqL invL).finalExp constsN wrongMillerN = some wrongPairingN := by decide +kernel

theorem gen_acc : lAccLoop ([twoL].zip ([g1GenW].map limbsG1)) (Limb.toExtended fqParams (limbsG1 g1GenW)) = some genAccL := by
  decide +kernel
theorem gen_acc_squares : ∀ x ∈ sqAccLoop ([twoL].zip ([g1GenW].map limbsG1)) (Limb.toExtended fqParams (limbsG1 g1GenW)),
    SquareRight x := by decide +kernel
theorem gen_acc_affine : Limb.toAffine fqParams genAccL = limbsG1 threeG := by decide +kernel
theorem bad_acc : lAccLoop ([twoL].zip ([badW].map limbsG1)) (Limb.toExtended fqParams (limbsG1 badNegW)) = some badAccL := by
  decide +kernel
theorem bad_acc_affine : Limb.toAffine fqParams badAccL = limbsG1 badAccW := by decide +kernel

theorem gen_acc_invert : InvertRight genAccL.z := by decide +kernel

theorem eq_of_onW {a : Option Nat} {u v : FqW} {n : Nat} (ha : a = some n) (h : OnW a (some u)) (h' : OnW a (some v)) : u = v := by
  obtain ⟨w, hw, e⟩ := h n ha
  obtain ⟨w', hw', e'⟩ := h' n ha
  rw [Option.some_inj] at hw hw'
  subst hw hw'
  exact val_inj (e.trans e'.symm)

theorem eq_of_onW2 {a : Fq2 (Option Nat)} {z z' : Fq2 FqW} (ha : Whole2 a) (h : R2 OnW a (watch2 z)) (h' : R2 OnW a (watch2 z')) :
    z = z' := by
  obtain ⟨⟨n, hn⟩, m, hm⟩ := ha
  obtain ⟨u, v⟩ := z
  obtain ⟨u', v'⟩ := z'
  have e1 := eq_of_onW hn h.1 h'.1
  have e2 := eq_of_onW hm h.2 h'.2
  dsimp only at e1 e2
  rw [e1, e2]

theorem eq_of_onW12 {a : Fq12 (Option Nat)} {z z' : Fq12 FqW} (ha : Whole12 a) (h : R12 OnW a (watch12 z))
    (h' : R12 OnW a (watch12 z')) : z = z' := by
  obtain ⟨⟨h0, h1, h2⟩, h3, h4, h5⟩ := h
  obtain ⟨⟨g0, g1, g2⟩, g3, g4, g5⟩ := h'
  obtain ⟨⟨w0, w1, w2⟩, w3, w4, w5⟩ := ha
  obtain ⟨⟨a0, a1, a2⟩, ⟨a3, a4, a5⟩⟩ := z
  obtain ⟨⟨b0, b1, b2⟩, ⟨b3, b4, b5⟩⟩ := z'
  have e0 := eq_of_onW2 w0 h0 g0
  have e1 := eq_of_onW2 w1 h1 g1
  have e2 := eq_of_onW2 w2 h2 g2
  have e3 := eq_of_onW2 w3 h3 g3
  have e4 := eq_of_onW2 w4 h4 g4
  have e5 := eq_of_onW2 w5 h5 g5
  dsimp only at e0 e1 e2 e3 e4 e5
  rw [e0, e1, e2, e3, e4, e5]

theorem pairingPart_of_parts {A : Type} {O : Base A} {k : Consts A} {vk : RVKey A} {π : RProof A} {I : Aff A} {f : Fq12 A}
    {o : Option (Fq12 A)} (h1 : O.multiMillerLoop [(π.a, O.prepare k π.b), (I, O.prepare k (O.negAff vk.gammaG2)),
      (π.c, O.prepare k (O.negAff vk.deltaG2))] = some f) (h2 : O.finalExp k f = o) : pairingPart O k vk π I = o := by
  unfold pairingPart
  rw [h1, Option.bind_eq_bind, Option.bind_some, h2]

theorem onW_G1 (p : Aff FqW) : RA OnW (numG1 p) (watchG1 p) := ⟨onW, onW, rfl⟩
theorem onW_G2 (q : Aff (Fq2 FqW)) : RA (R2 OnW) (numG2 q) (watchG2 q) := ⟨⟨onW, onW⟩, ⟨onW, onW⟩, rfl⟩
theorem onL_G1 (p : Aff FqW) : RA OnL (numG1 p) (limbsG1 p) := ⟨onL, onL, rfl⟩
theorem onL_G2 (q : Aff (Fq2 FqW)) : RA (R2 OnL) (numG2 q) (limbsG2 q) := ⟨⟨onL, onL⟩, ⟨onL, onL⟩, rfl⟩

/-- The run of the key and the proof made of generators is right, and the two pairings agree. -/
theorem gen_right : ∃ z, VerifyRight genKeyW genProofW [twoL] threeG z z := by
  obtain ⟨z, hz, hn⟩ := gen_runs_num
  obtain ⟨b, hb, hr⟩ := Sim_pairingPart sim_watched consts_numW (vk := ⟨numG1 g1GenW, numG2 g2GenW, numG2 g2GenW, numG2 g2GenW, []⟩) (vk' := genKeyW.map watchG1 watchG2)
    (π := ⟨numG1 sixG, numG2 g2GenW, numG1 twoG⟩) (π' := genProofW.map watchG1 watchG2) (onW_G2 g2GenW) (onW_G2 g2GenW) (onW_G1 sixG)
    (onW_G2 g2GenW) (onW_G1 twoG) (onW_G1 threeG) _ (pairingPart_of_parts good_miller good_final)
  obtain ⟨y, rfl⟩ := watch_of_whole hr (whole_lits ..)
  have e := eq_of_onW12 (whole_lits ..) hr hn
  subst e
  exact ⟨y, hz, ⟨g1GenW, [g1GenW], genAccL, rfl, gen_acc, gen_acc_squares, gen_acc_invert, gen_acc_affine⟩, hb⟩

/-- The code rejects the proof of the second key. -/
theorem bad_verdict : codeVerify (badKeyW.map limbsG1 limbsG2) (badProofW.map limbsG1 limbsG2) [twoL] =
    some (.error .proofVerificationError) := by
  obtain ⟨ab, hz, hn⟩ := gen_runs_num
  obtain ⟨y, hy, hr⟩ := Sim_pairingPart sim_code consts_numL (vk := ⟨numG1 g1GenW, numG2 g2GenW, numG2 g2GenW, numG2 g2GenW, []⟩) (vk' := badKeyW.map limbsG1 limbsG2)
    (π := ⟨numG1 badW, numG2 g2GenW, numG1 negGenW⟩) (π' := badProofW.map limbsG1 limbsG2) (onL_G2 g2GenW) (onL_G2 g2GenW) (onL_G1 badW)
    (onL_G2 g2GenW) (onL_G1 negGenW) (onL_G1 badAccW) _ (pairingPart_of_parts wrong_miller wrong_final)
  have hk : RunsRight badKeyW.alphaG1 badKeyW.betaG2 ab := hz
  have ne : y ≠ limbs12 ab := by
    intro e
    obtain ⟨u, hu, e1⟩ := hn.1.1.1 _ rfl
    have e2 := (hr.1.1.1 _ rfl).2
    have e3 : ab.c0.c0.c0 = u := Option.some_inj.mp hu
    rw [e] at e2
    have e4 : (limbs12 ab).c0.c0.c0 = ab.c0.c0.c0.limbs := rfl
    rw [e4, e3, e1] at e2
    exact absurd e2 (by decide)
  unfold pairingPart at hy
  obtain ⟨f, e1, e2⟩ := Option.bind_eq_some_iff.mp hy
  rw [← bad_acc_affine] at e1
  unfold codeVerify
  rw [prepare_code hk, Option.bind_some]
  have q1 : (badKeyW.map limbsG1 limbsG2).ic = limbsG1 badNegW :: [badW].map limbsG1 := rfl
  have q2 : [twoL].length + 1 = (badKeyW.map limbsG1 limbsG2).ic.length := rfl
  generalize badKeyW.map limbsG1 limbsG2 = kk at *
  generalize badProofW.map limbsG1 limbsG2 = pp at *
  rw [lVerify_cons (vk := ⟨limbs12 ab, codeBase.prepare constsCode (codeBase.negAff kk.gammaG2),
    codeBase.prepare constsCode (codeBase.negAff kk.deltaG2), kk.ic⟩) q1 q2 bad_acc e1 e2]
  dsimp only
  rw [if_pos ne]

end Kogarashi.Groth16
