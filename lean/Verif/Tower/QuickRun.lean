import Verif.Tower.Quick
import Verif.Props.Words

/-!
# The pairing of the code, evaluated
-/

namespace Kogarashi.Tower

open Limbs Kogarashi.Field Spec Props Curve Curve.Limb

namespace Quick

/-- The numbers of two coefficients. -/
def num2 (a : Fq2 L4) : Fq2 (Option Nat) := ⟨some a.c0.val, some a.c1.val⟩
/-- The constants as numbers. -/
def constsN : Consts (Option Nat) where
  fq2C1 i := some (constsCode.fq2C1 i).val
  fq6C1 i := num2 (constsCode.fq6C1 i)
  fq6C2 i := num2 (constsCode.fq6C2 i)
  fq12C1 i := num2 (constsCode.fq12C1 i)
  xiQ := num2 constsCode.xiQ
/-- A point as numbers. -/
def numG1 (p : Aff FqW) : Aff (Option Nat) := ⟨some p.x.limbs.val, some p.y.limbs.val, p.inf⟩
/-- A point as numbers. -/
def numG2 (q : Aff (Fq2 FqW)) : Aff (Fq2 (Option Nat)) := ⟨num2 (limbs2 q.x), num2 (limbs2 q.y), q.inf⟩
/-- Twelve numbers. -/
def lits (a b c d e f g h i j k l : Nat) : Fq12 (Option Nat) :=
  ⟨⟨⟨some a, some b⟩, ⟨some c, some d⟩, ⟨some e, some f⟩⟩, ⟨⟨some g, some h⟩, ⟨some i, some j⟩, ⟨some k, some l⟩⟩⟩

/-- The words of a number given by its limbs. -/
def montOf (a : L4) : FqW := wordOf (fqParams.toMontForm a)

/-- The words of the generator of G2 (`bn254/src/params.rs` lines 12-40). -/
def g2GenW : Aff (Fq2 FqW) :=
  ⟨⟨montOf ⟨0x46debd5cd992f6ed, 0x674322d4f75edadd, 0x426a00665e5c4479, 0x1800deef121f1e76⟩,
    montOf ⟨0x97e485b7aef312c2, 0xf1aa493335a9e712, 0x7260bfb731fb5d25, 0x198e9393920d483a⟩⟩,
   ⟨montOf ⟨0x4ce6cc0166fa7daa, 0xe3d1e7690c43d37b, 0x4aab71808dcb408f, 0x12c85ea5db8c6deb⟩,
    montOf ⟨0x55acdadcd122975b, 0xbc4b313370b38ef3, 0xec9e99ad690c3395, 0x090689d0585ff075⟩⟩, false⟩

/-- The Miller loop of the generators. -/
def genMillerN : Fq12 (Option Nat) := lits 0x259ef18c4395c9ca29a759b09af4c5d0dfd7b22e6b8af5d0e6a1c32c6ac34df7 0x182dfafaf7117e95dfde08c1c4c214440de8dba5fa24d5aaffea903a9451eb24
    0x1c27e267dd2d6f72fde16538a3e047cc3a32be3671293c43aafe86c58a30d8ab 0x172de4dea606b35ace11992edc6565a5841080e60bd2759240e0f5a6c0b65fa7
    0x1ab6c6215daf346d3d11aa0bb8718f191decb67e82b38fd5921ea63c8d295b4b 0x2dac65451ab4df2dba6d7297b2210c5981cc0d18f9399d7d25f3a089df67d7a2
    0x1a36398fc92920e99d3ab7704ba1629ea2bc4b07fc52448ddcca20cf833ee58d 0x203c05212c4627ccba7d81813fcf0c81e1aabea11af6e0a28d5e4c5168bfa958
    0x9dfb8693cb1c95374fad4ea63d18d725b19f3d17c9a5577474ea3b89a9c8d0d 0xf8a547d51196ab11678fd0e47e5fdbd6137aab8ff0a4cf8ec90d456b4144169
    0x239fd6a2ab680e4a762edfbb05053359fc666012bc87797238b9362fa8c12ce6 0x74a8e55ac79825ce02f4d6f9072d25d9496f43e6c7f39190d7666c35886df8a
/-- The pairing of the generators. -/
def genPairingN : Fq12 (Option Nat) := lits 0x12adf27ccb29382a5ef208445f5f6f3723a59ac167bcf363c556f62b2a98671d 0x1832226987c434fc14d585f1a45ba647d618018ea58e4add2e02a64acbd60549
    0x76ea6f18435864aa2ff062a4a77e736465f6072d4023bf42306e4312363b991 0x1b158f3c2fae9b18ae0b22c0bbb0f602ddf5bc7b7ffb5ac0172d1f257a4d598e
    0x197cda6cc3e206360df2027bf1de17a7c799dc487a0b27535cf9cc917da86724 0xcbea85ee0b236cc644e4dcf1f01ff0ace0394312bceeb55f16c96d081754cdb
    0x13495c08e5d415c5746d9990cb12b27e4c4c9fe1cadefa951bb0ce0def1b82a1 0x1614817a84c162919a9983c82e401a9fb17540bd2a9e5adb9458abcb56d24998
    0x1ffef4581607fc376a90a35fa03dfaa52fdd826b796e0f358975b68a2bab1f9c 0x210e437dfc43d951de7e5aa2181f138e7b0591d3d080da677002907c28ebfe11
    0x2a2341538eaee95cda7903229312ca0f5091cc0581334e54988ae2485b36cf53 0x2b8f1d5dfd20c55b67e42a0bc2ced9723511ed44fd0d8598d34bab373157aa84
/-- The Miller loop of the code at `badTwist`. -/
def badMillerCode : Fq12 (Option Nat) := lits 0x15eabc97cf933c813b3e25df5231c6198378d034b7a0ff98f8e93786fb898d5b 0x1aafe9373ab993b2f9f93fa59dee4436beaffd44abaf8e515d3d4b9a130fbccd
    0xe67c6d0c590df406474935264f8c99826116a3c42152112528e74def1e1c06b 0x911ae7a38b86b8af620251752ba8d491a807867d003b60dbbd7bc6a916d9753
    0x2a61cc932f0bff9ea954f2386f3ef41532221234a859ec6e2b04557cf83c08ae 0xf400a130393d651cc1996905b04492ba000b49cecea416a9289e0529652dca4
    0x18f4eed673212125e4a3548e34c0408f623d10c78a8f9275aa9f27d40a89eb22 0x29f93d0d2baf742a7fdce308c63f35e1563c9700c07d4b64941be6144b1031c9
    0x14a3238068ae2be7dd9dc678b748d28e8991d9920f0b5aba084d896e951c6a26 0x1b6c327a8ae02e4feb610cf1d4644b0673da2c1417d9fb0f15310c8525483d47
    0x1974bb07bcf8e80e7ae0a0f665e9b1cd17356d2880e34535a1f7a409c932a730 0x304978ffa8639d76e026cc886131ea78bfd7d591f0c2d4a8143017ed2d14f1de
/-- The pairing of the code at `badTwist`. -/
def badPairingCode : Fq12 (Option Nat) := lits 0x2f9d196b056535f3c59700f042c7639465c0ab4b23a03a8e898630e765b3c2ec 0x137ff0cadb95f822fdf4add0bab5f8d4afda47fb3f047e421a4ac17fd81435e6
    0x2687945cab0e3220f998c26e999c4f5a05068b21f9f83ce6fec74c83d650c254 0xca84f99b752b386299849fabef5e360d671261db42ce86bf9849220dff2b2dd
    0x342b5f495ac458a7d258d55f6141d81a20ba684e8ea01ca1988a9082cbd59e9 0x1dd168f0020ca149e1adb825a0c2dd601573711f0c9874d784b10a1175ef0ffb
    0xf46e47dd56578e62296c9223b6884abba0ff7a83b8c45d65184c8d3add59c09 0xe5ae9f288df1b3139e8a7c5b044b1324d7287500098eca162baa9f7edf8a9c1
    0x3d56ccc1089fd7f5ac543a281fee46ef5c3f11fab737364f40bd6157a0d9607 0x20435ae772b83166c18918aceec2ca5f2ef221f68f0289153996ee316377051f
    0x20d3be4f1ed10aa66d570ffc697d655f2e39d77f5fcc7db6e2a54fa9b768dd7a 0x14a498084daeec639e6467266cb4b295750b46dae0b8bf042fad5b84ce05fdc8
/-- The Miller loop with products for squares at `badTwist`. -/
def badMillerRight : Fq12 (Option Nat) := lits 0x205c4e03ec4b89528aad99b150a3a9e8f950063515f6a51494a1d4556cdc33fd 0x21dab153ac16abea5f675a207e6bcfa1072aa1d2c481f303c8711d1d1bf4306c
    0x2dd5dc6a3b05d3c02f14d3b205ea9d202398bdaffc8c2f3421f05ea3d7e4b82f 0xf2d5d41ac568d8b700d61adb008bc40e311b5a68c343080b8b772364aec5ea0
    0x2d368dbf71caf42086334eda8f6f3e6d4d1ab52c2d4ad062a4f46173dbc028cc 0x26501372294211bde2c7c527376f07d08f3e9039deab9bd17b501235b730c856
    0x286251c9dbcd0187917d94af866fb3997ee5c51bbfc3dc0e1a50ced207236205 0x23ea762c8d3ef8501870b21794fca301aaa57c003b0b8cb90d5e0c206d244251
    0x24696fa78232a9210a686fe7c0b47da0bd65a0511d925d59c26732867dfcf571 0x2390cc563f365418668f77c98ab517cd37077e0bedfa3eda7233d9964f5aa708
    0xcd7aa639c4137b6f019c687911309a32240f1bc61ff8f889444016e58b77816 0x1fd3bf40207402511c72102b3e2df402ee82bf5352a173ce20c462230be53472
/-- The pairing with products for squares at `badTwist`. -/
def badPairingRight : Fq12 (Option Nat) := lits 0x24ac47f0f14c50a8a1d8620e44fc0dbbef61dfd3b825b332a451e773f6dc09c0 0x91c51f64d6bd177390d3ec001e82e945310476aeb5a234b3f171f5ffcd01437
    0x4dd4f08d83b4c9bbac205e21fbd7f74a845781ffef2a068861fa55e70d1406c 0x237e74cec21fa99ec1e3e2792adf09d2ea0b57c626d62bb0a9261f99b5230d65
    0x2e4b2f243b44ae0eeda361171ef73b65989e674aed9602ab07319ad7e1bacd19 0x11be0ef304cc41797c32e55ff8b323c07a44a02810b05536cb7f271930cd298e
    0x13569afa4ed54d1b2f83ef0ea84f1613b76bb136ac06c9c51634c029d9738e5e 0x13c7266857b6257902cf787d11ee00ba70128f544f0ccd972730e5257308b134
    0x16c925d311ca3eac81337b70fc0ab2a5b45672903bc128b45bdd73ebb9ca556c 0x2d089cd18bce4f0d2c3221fd6b2756dad5db52fdb8c929962800492562f6c8cb
    0x17ec29c68ba10eb51fc59b3fb328da0372695a413923eccc6836561798972a08 0xab6723c3634913a7b2a732d5a768ff17ffe4535632e81cc055fa1df5a19c8f

theorem gen_miller : (quick sqW invW).multiMillerLoop [(numG1 g1GenW, (quick sqW invW).prepare constsN (numG2 g2GenW))] =
    some genMillerN := by decide +kernel
theorem gen_final : (quick sqW invW).finalExp constsN genMillerN = some genPairingN := by decide +kernel

theorem bad_miller : (quick sqL invL).multiMillerLoop [(numG1 g1GenW, (quick sqL invL).prepare constsN (numG2 badTwist))] =
    some badMillerCode := by decide +kernel
theorem bad_final : (quick sqL invL).finalExp constsN badMillerCode = some badPairingCode := by decide +kernel

theorem right_miller : (quick sqF invF).multiMillerLoop [(numG1 g1GenW, (quick sqF invF).prepare constsN (numG2 badTwist))] =
    some badMillerRight := by decide +kernel
theorem right_final : (quick sqF invF).finalExp constsN badMillerRight = some badPairingRight := by decide +kernel

theorem pairing_of_parts {A : Type} {O : Base A} {k : Consts A} {p : Aff A} {q : Aff (Fq2 A)} {f : Fq12 A} {o : Option (Fq12 A)}
    (h1 : O.multiMillerLoop [(p, O.prepare k q)] = some f) (h2 : O.finalExp k f = o) : O.pairing k p q = o := by
  unfold Base.pairing
  rw [h1, Option.bind_eq_bind, Option.bind_some, h2]

theorem onW {w : FqW} : OnW (some w.limbs.val) (some w) := fun _ hn => ⟨w, rfl, Option.some_inj.mp hn⟩
theorem onF {w : FqW} : OnF (some w.limbs.val) w := fun _ hn => Option.some_inj.mp hn
theorem onL {w : FqW} : OnL (some w.limbs.val) w.limbs := fun _ hn => ⟨w.canonical, Option.some_inj.mp hn⟩

theorem onW_lit {a : L4} (h : Canonical fqParams a) : OnW (some a.val) (some (wordOf a)) := by
  have e := onW (w := wordOf a)
  rw [limbs_wordOf h] at e
  exact e
theorem onF_lit {a : L4} (h : Canonical fqParams a) : OnF (some a.val) (wordOf a) := by
  have e := onF (w := wordOf a)
  rw [limbs_wordOf h] at e
  exact e
theorem onL_lit {a : L4} (h : Canonical fqParams a) : OnL (some a.val) a := fun _ hn => ⟨h, Option.some_inj.mp hn⟩

theorem consts_numW : RK OnW constsN constsWatched where
  fq2C1 i := onW_lit (getD_all canon_fq2C1 canon2_zero.1 i)
  fq6C1 i := ⟨onW_lit (getD_all canon_fq6C1 canon2_zero i).1, onW_lit (getD_all canon_fq6C1 canon2_zero i).2⟩
  fq6C2 i := ⟨onW_lit (getD_all canon_fq6C2 canon2_zero i).1, onW_lit (getD_all canon_fq6C2 canon2_zero i).2⟩
  fq12C1 i := ⟨onW_lit (getD_all canon_fq12C1 canon2_zero i).1, onW_lit (getD_all canon_fq12C1 canon2_zero i).2⟩
  xiQ := ⟨onW_lit canon_xiQ.1, onW_lit canon_xiQ.2⟩
theorem consts_numF : RK OnF constsN constsW where
  fq2C1 i := onF_lit (getD_all canon_fq2C1 canon2_zero.1 i)
  fq6C1 i := ⟨onF_lit (getD_all canon_fq6C1 canon2_zero i).1, onF_lit (getD_all canon_fq6C1 canon2_zero i).2⟩
  fq6C2 i := ⟨onF_lit (getD_all canon_fq6C2 canon2_zero i).1, onF_lit (getD_all canon_fq6C2 canon2_zero i).2⟩
  fq12C1 i := ⟨onF_lit (getD_all canon_fq12C1 canon2_zero i).1, onF_lit (getD_all canon_fq12C1 canon2_zero i).2⟩
  xiQ := ⟨onF_lit canon_xiQ.1, onF_lit canon_xiQ.2⟩
theorem consts_numL : RK OnL constsN constsCode where
  fq2C1 i := onL_lit (getD_all canon_fq2C1 canon2_zero.1 i)
  fq6C1 i := ⟨onL_lit (getD_all canon_fq6C1 canon2_zero i).1, onL_lit (getD_all canon_fq6C1 canon2_zero i).2⟩
  fq6C2 i := ⟨onL_lit (getD_all canon_fq6C2 canon2_zero i).1, onL_lit (getD_all canon_fq6C2 canon2_zero i).2⟩
  fq12C1 i := ⟨onL_lit (getD_all canon_fq12C1 canon2_zero i).1, onL_lit (getD_all canon_fq12C1 canon2_zero i).2⟩
  xiQ := ⟨onL_lit canon_xiQ.1, onL_lit canon_xiQ.2⟩

/-- Twelve numbers none of which is missing. -/
def Whole2 (a : Fq2 (Option Nat)) : Prop := (∃ n, a.c0 = some n) ∧ ∃ n, a.c1 = some n
/-- Twelve numbers none of which is missing. -/
def Whole12 (a : Fq12 (Option Nat)) : Prop :=
  (Whole2 a.c0.c0 ∧ Whole2 a.c0.c1 ∧ Whole2 a.c0.c2) ∧ Whole2 a.c1.c0 ∧ Whole2 a.c1.c1 ∧ Whole2 a.c1.c2

theorem whole_lits (a b c d e f g h i j k l : Nat) : Whole12 (lits a b c d e f g h i j k l) :=
  ⟨⟨⟨⟨_, rfl⟩, ⟨_, rfl⟩⟩, ⟨⟨_, rfl⟩, ⟨_, rfl⟩⟩, ⟨⟨_, rfl⟩, ⟨_, rfl⟩⟩⟩, ⟨⟨_, rfl⟩, ⟨_, rfl⟩⟩, ⟨⟨_, rfl⟩, ⟨_, rfl⟩⟩, ⟨⟨_, rfl⟩, ⟨_, rfl⟩⟩⟩

theorem watch_of_whole2 {a : Fq2 (Option Nat)} {b : Fq2 (Option FqW)} (h : R2 OnW a b) (ha : Whole2 a) : ∃ z, b = watch2 z := by
  obtain ⟨⟨n, hn⟩, m, hm⟩ := ha
  obtain ⟨u, hu, -⟩ := h.1 n hn
  obtain ⟨v, hv, -⟩ := h.2 m hm
  obtain ⟨b0, b1⟩ := b
  dsimp only at hu hv
  exact ⟨⟨u, v⟩, by rw [hu, hv]; rfl⟩

theorem watch_of_whole {a : Fq12 (Option Nat)} {b : Fq12 (Option FqW)} (h : R12 OnW a b) (ha : Whole12 a) : ∃ z, b = watch12 z := by
  obtain ⟨⟨h0, h1, h2⟩, h3, h4, h5⟩ := h
  obtain ⟨⟨w0, w1, w2⟩, w3, w4, w5⟩ := ha
  obtain ⟨z0, e0⟩ := watch_of_whole2 h0 w0
  obtain ⟨z1, e1⟩ := watch_of_whole2 h1 w1
  obtain ⟨z2, e2⟩ := watch_of_whole2 h2 w2
  obtain ⟨z3, e3⟩ := watch_of_whole2 h3 w3
  obtain ⟨z4, e4⟩ := watch_of_whole2 h4 w4
  obtain ⟨z5, e5⟩ := watch_of_whole2 h5 w5
  obtain ⟨⟨b0, b1, b2⟩, ⟨b3, b4, b5⟩⟩ := b
  dsimp only at e0 e1 e2 e3 e4 e5
  exact ⟨⟨⟨z0, z1, z2⟩, ⟨z3, z4, z5⟩⟩, by rw [e0, e1, e2, e3, e4, e5]; rfl⟩

theorem words_of_whole2 {a : Fq2 (Option Nat)} {b : Fq2 L4} (h : R2 OnL a b) (ha : Whole2 a) : ∃ z, b = limbs2 z := by
  obtain ⟨⟨n, hn⟩, m, hm⟩ := ha
  obtain ⟨hu, -⟩ := h.1 n hn
  obtain ⟨hv, -⟩ := h.2 m hm
  exact ⟨⟨⟨b.c0, hu⟩, ⟨b.c1, hv⟩⟩, rfl⟩

theorem words_of_whole {a : Fq12 (Option Nat)} {b : Fq12 L4} (h : R12 OnL a b) (ha : Whole12 a) : ∃ z, b = limbs12 z := by
  obtain ⟨⟨h0, h1, h2⟩, h3, h4, h5⟩ := h
  obtain ⟨⟨w0, w1, w2⟩, w3, w4, w5⟩ := ha
  obtain ⟨z0, e0⟩ := words_of_whole2 h0 w0
  obtain ⟨z1, e1⟩ := words_of_whole2 h1 w1
  obtain ⟨z2, e2⟩ := words_of_whole2 h2 w2
  obtain ⟨z3, e3⟩ := words_of_whole2 h3 w3
  obtain ⟨z4, e4⟩ := words_of_whole2 h4 w4
  obtain ⟨z5, e5⟩ := words_of_whole2 h5 w5
  obtain ⟨⟨b0, b1, b2⟩, ⟨b3, b4, b5⟩⟩ := b
  dsimp only at e0 e1 e2 e3 e4 e5
  exact ⟨⟨⟨z0, z1, z2⟩, ⟨z3, z4, z5⟩⟩, by rw [e0, e1, e2, e3, e4, e5]; rfl⟩

/-- The pairing of the generators, with its numbers. -/
theorem gen_runs_num : ∃ z, RunsRight g1GenW g2GenW z ∧ R12 OnW genPairingN (watch12 z) := by
  obtain ⟨b, hb, hr⟩ := sim_watched.pairing consts_numW (p := numG1 g1GenW) (q := numG2 g2GenW)
    (p' := ⟨some g1GenW.x, some g1GenW.y, g1GenW.inf⟩) (q' := ⟨watch2 g2GenW.x, watch2 g2GenW.y, g2GenW.inf⟩)
    ⟨onW, onW, rfl⟩ ⟨⟨onW, onW⟩, ⟨onW, onW⟩, rfl⟩ _ (pairing_of_parts gen_miller gen_final)
  obtain ⟨z, rfl⟩ := watch_of_whole hr (whole_lits ..)
  exact ⟨z, hb, hr⟩

/-- The pairing of the generators makes no wrong squaring. -/
theorem gen_runs : ∃ z, RunsRight g1GenW g2GenW z := gen_runs_num.imp fun _ h => h.1

theorem bad_code : ∃ z, codePairing (limbsG1 g1GenW) (limbsG2 badTwist) = some (limbs12 z) ∧
    OnL badPairingCode.c0.c0.c0 z.c0.c0.c0.limbs := by
  obtain ⟨b, hb, hr⟩ := sim_code.pairing consts_numL (p := numG1 g1GenW) (q := numG2 badTwist)
    (p' := limbsG1 g1GenW) (q' := limbsG2 badTwist)
    ⟨onL, onL, rfl⟩ ⟨⟨onL, onL⟩, ⟨onL, onL⟩, rfl⟩ _ (pairing_of_parts bad_miller bad_final)
  obtain ⟨z, rfl⟩ := words_of_whole hr (whole_lits ..)
  exact ⟨z, hb, hr.1.1.1⟩

theorem bad_right : ∃ z, constsW.pairing g1GenW badTwist = some z ∧ OnF badPairingRight.c0.c0.c0 z.c0.c0.c0 := by
  obtain ⟨b, hb, hr⟩ := sim_product.pairing consts_numF (p := numG1 g1GenW) (q := numG2 badTwist)
    (p' := g1GenW) (q' := badTwist)
    ⟨onF, onF, rfl⟩ ⟨⟨onF, onF⟩, ⟨onF, onF⟩, rfl⟩ _ (pairing_of_parts right_miller right_final)
  rw [fieldBase_pairing] at hb
  exact ⟨b, hb, hr.1.1.1⟩

/-- The pairing of the code at `badTwist` is not the right one. -/
theorem bad_differs : ∃ z z', codePairing (limbsG1 g1GenW) (limbsG2 badTwist) = some (limbs12 z) ∧
    constsW.pairing g1GenW badTwist = some z' ∧ z ≠ z' := by
  obtain ⟨z, hz, h⟩ := bad_code
  obtain ⟨z', hz', h'⟩ := bad_right
  refine ⟨z, z', hz, hz', fun e => ?_⟩
  obtain ⟨n, hn⟩ : ∃ n, badPairingCode.c0.c0.c0 = some n := ⟨_, rfl⟩
  obtain ⟨m, hm⟩ : ∃ m, badPairingRight.c0.c0.c0 = some m := ⟨_, rfl⟩
  have h1 := (h n hn).2
  have h2 := h' m hm
  rw [e, h2] at h1
  have hne : badPairingCode.c0.c0.c0 ≠ badPairingRight.c0.c0.c0 := by decide +kernel
  exact hne (by rw [hn, hm, h1])

end Quick

end Kogarashi.Tower
