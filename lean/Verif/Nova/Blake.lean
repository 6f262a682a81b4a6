import Verif.Field.Params

/-!
# The MiMC round constants

`Mimc::default` (`nova/src/hash.rs` lines 19-31) derives the constants with the crate `blake2b_simd`, which is not part of the
repository.  `digest` is BLAKE2b as the standard (RFC 7693) defines it, for 64 bytes of output, no key and the
personalization `mimc`, the parameters of `nova/src/hash/helper.rs` lines 10-15.
-/

namespace Kogarashi.Nova.Blake

open Kogarashi Kogarashi.Field Limbs

/-- Four words: a row of the working matrix. -/
structure Row4 where
  a : Nat
  b : Nat
  c : Nat
  d : Nat
deriving DecidableEq

/-- A function on every position of four rows, with two message words for each. -/
def Row4.zip4 (f : Nat → Nat → Nat → Nat → Nat → Nat → Nat × Nat × Nat × Nat) (p q r s x y : Row4) : Row4 × Row4 × Row4 × Row4 :=
  let g0 := f p.a q.a r.a s.a x.a y.a
  let g1 := f p.b q.b r.b s.b x.b y.b
  let g2 := f p.c q.c r.c s.c x.c y.c
  let g3 := f p.d q.d r.d s.d x.d y.d
  (⟨g0.1, g1.1, g2.1, g3.1⟩, ⟨g0.2.1, g1.2.1, g2.2.1, g3.2.1⟩, ⟨g0.2.2.1, g1.2.2.1, g2.2.2.1, g3.2.2.1⟩,
    ⟨g0.2.2.2, g1.2.2.2, g2.2.2.2, g3.2.2.2⟩)

/-- Rotation to the right of a 64-bit word (RFC 7693, section 2.3). -/
def rotr (x n : Nat) : Nat := (x >>> n) ||| ((x <<< (64 - n)) % 2 ^ 64)

/-- The mixing function (RFC 7693, section 3.1). -/
def mix (a b c d x y : Nat) : Nat × Nat × Nat × Nat :=
  let a := (a + b + x) % 2 ^ 64
  let d := rotr (d ^^^ a) 32
  let c := (c + d) % 2 ^ 64
  let b := rotr (b ^^^ c) 24
  let a := (a + b + y) % 2 ^ 64
  let d := rotr (d ^^^ a) 16
  let c := (c + d) % 2 ^ 64
  let b := rotr (b ^^^ c) 63
  (a, b, c, d)

/-- The message schedule (RFC 7693, section 2.7). -/
def sigma : List (List Nat) :=
  [[0, 1, 2, 3, 4, 5, 6, 7, 8, 9, 10, 11, 12, 13, 14, 15],
   [14, 10, 4, 8, 9, 15, 13, 6, 1, 12, 0, 2, 11, 7, 5, 3],
   [11, 8, 12, 0, 5, 2, 15, 13, 10, 14, 3, 6, 7, 1, 9, 4],
   [7, 9, 3, 1, 13, 12, 11, 14, 2, 6, 5, 10, 4, 0, 15, 8],
   [9, 0, 5, 7, 2, 4, 10, 15, 14, 1, 11, 12, 6, 8, 3, 13],
   [2, 12, 6, 10, 0, 11, 8, 3, 4, 13, 7, 5, 15, 14, 1, 9],
   [12, 5, 1, 15, 14, 13, 4, 10, 0, 7, 6, 3, 9, 2, 8, 11],
   [13, 11, 7, 14, 12, 1, 3, 9, 5, 0, 15, 4, 8, 6, 2, 10],
   [6, 15, 14, 9, 11, 3, 0, 8, 12, 2, 13, 7, 1, 4, 10, 5],
   [10, 2, 8, 4, 7, 6, 1, 5, 15, 11, 9, 14, 3, 12, 13, 0]]

/-- One round (RFC 7693, section 3.2): the columns, then the diagonals. -/
def round (m : List Nat) (s : List Nat) (v : Row4 × Row4 × Row4 × Row4) : Row4 × Row4 × Row4 × Row4 :=
  let w (i : Nat) := m.getD (s.getD i 0) 0
  let (p, q, r, t) := Row4.zip4 mix v.1 v.2.1 v.2.2.1 v.2.2.2 ⟨w 0, w 2, w 4, w 6⟩ ⟨w 1, w 3, w 5, w 7⟩
  let (p, q, r, t) := Row4.zip4 mix p ⟨q.b, q.c, q.d, q.a⟩ ⟨r.c, r.d, r.a, r.b⟩ ⟨t.d, t.a, t.b, t.c⟩
    ⟨w 8, w 10, w 12, w 14⟩ ⟨w 9, w 11, w 13, w 15⟩
  (p, ⟨q.d, q.a, q.b, q.c⟩, ⟨r.c, r.d, r.a, r.b⟩, ⟨t.b, t.c, t.d, t.a⟩)

/-- The initialization vector (RFC 7693, section 2.6). -/
def iv0 : Row4 := ⟨0x6a09e667f3bcc908, 0xbb67ae8584caa73b, 0x3c6ef372fe94f82b, 0xa54ff53a5f1d36f1⟩
/-- The initialization vector, second half. -/
def iv1 : Row4 := ⟨0x510e527fade682d1, 0x9b05688c2b3e6c1f, 0x1f83d9abfb41bd6b, 0x5be0cd19137e2179⟩

/-- Exclusive or of two rows. -/
def Row4.xor (p q : Row4) : Row4 := ⟨p.a ^^^ q.a, p.b ^^^ q.b, p.c ^^^ q.c, p.d ^^^ q.d⟩

/-- The compression function (RFC 7693, section 3.2); `t` is the number of bytes so far, `last` the finalization flag. -/
def compress (h : Row4 × Row4) (m : List Nat) (t : Nat) (last : Bool) : Row4 × Row4 :=
  let v := ((List.range 12).map fun i => sigma.getD (i % 10) []).foldl (fun v s => round m s v)
    (h.1, h.2, iv0, ⟨iv1.a ^^^ (t % 2 ^ 64), iv1.b ^^^ (t / 2 ^ 64), if last then iv1.c ^^^ (2 ^ 64 - 1) else iv1.c, iv1.d⟩)
  (h.1.xor (v.1.xor v.2.2.1), h.2.xor (v.2.1.xor v.2.2.2))

/-- The number of the bytes, least significant first. -/
def leBytes : List Nat → Nat
  | [] => 0
  | b :: bs => b + 256 * leBytes bs

/-- The sixteen words of a block, padded with zeros. -/
def words (block : List Nat) : List Nat := (List.range 16).map fun i => leBytes ((block.drop (8 * i)).take 8)

/-- The bytes of a word, least significant first. -/
def wordBytes (w : Nat) : List Nat := (List.range 8).map fun i => w / 256 ^ i % 256

/-- The blocks of the message, the last one flagged (RFC 7693, section 3.3); the first argument bounds the number of blocks. -/
def absorb : Nat → List Nat → Nat → Row4 × Row4 → Row4 × Row4
  | 0, _, _, h => h
  | k + 1, msg, t, h =>
    if msg.length ≤ 128 then compress h (words msg) (t + msg.length) true
    else absorb k (msg.drop 128) (t + 128) (compress h (words (msg.take 128)) (t + 128) false)

/-- The state before the first block: the parameter block (64 bytes of output, no key, fanout and depth 1, the
personalization `mimc` padded with zeros) added to the initialization vector (`nova/src/hash/helper.rs` lines 10-15; RFC 7693,
section 2.5 and appendix). -/
def start : Row4 × Row4 :=
  (⟨iv0.a ^^^ 0x01010040, iv0.b, iv0.c, iv0.d⟩, ⟨iv1.a, iv1.b, iv1.c ^^^ leBytes [0x6d, 0x69, 0x6d, 0x63], iv1.d⟩)

/-- The digest of the bytes given to `update` so far (`nova/src/hash/helper.rs` lines 20-33); `State::finalize` leaves the
state as it is. -/
def digest (msg : List Nat) : List Nat :=
  let h := absorb (msg.length + 1) msg 0 start
  [h.1.a, h.1.b, h.1.c, h.1.d, h.2.a, h.2.b, h.2.c, h.2.d].flatMap wordBytes

/-- The loop of `Mimc::default` (`nova/src/hash.rs` lines 23-27): the digests the constants are made of, `s` being the bytes
absorbed so far. -/
def constLoop : Nat → List Nat → List (List Nat)
  | 0, _ => []
  | k + 1, s =>
    let bytes := digest s
    let s' := s ++ bytes
    digest s' :: constLoop k s'

/-- `nova/src/hash.rs:9` `MIMC_ROUNDS`. -/
def mimcRounds : Nat := 46

/-- `Mimc::default` (`nova/src/hash.rs` lines 19-31) over the field `P`: every digest read by `from_bytes_wide`. -/
def mimcConstants (P : FieldParams) : List L4 :=
  (constLoop mimcRounds []).map fun d => P.fromBytesWide fun i => d.getD i 0

/-! ### The same loop, block by block -/

/-- The bytes of the state. -/
def out (h : Row4 × Row4) : List Nat := [h.1.a, h.1.b, h.1.c, h.1.d, h.2.a, h.2.b, h.2.c, h.2.d].flatMap wordBytes

/-- The loop with the compressed blocks `h`, their number of bytes `t`, the bytes not yet compressed and the last digest. -/
def constStream : Nat → Row4 × Row4 → Nat → List Nat → List Nat → List (List Nat)
  | 0, _, _, _, _ => []
  | k + 1, h, t, buf, bytes =>
    if buf.length = 128 then
      let h' := compress h (words buf) (t + 128) false
      let d := out (compress h' (words bytes) (t + 128 + bytes.length) true)
      d :: constStream k h' (t + 128) bytes d
    else
      let d := out (compress h (words (buf ++ bytes)) (t + (buf ++ bytes).length) true)
      d :: constStream k h t (buf ++ bytes) d

theorem absorb_long (k : Nat) {blk rest : List Nat} (t : Nat) (h : Row4 × Row4) (hb : blk.length = 128) (hr : rest ≠ []) :
    absorb (k + 1) (blk ++ rest) t h = absorb k rest (t + 128) (compress h (words blk) (t + 128) false) := by
  rw [absorb, if_neg, List.drop_left' hb, List.take_left' hb]
  rw [List.length_append, hb]
  have := List.length_pos_iff.mpr hr
  omega

theorem absorb_short (k : Nat) {msg : List Nat} (t : Nat) (h : Row4 × Row4) (hm : msg.length ≤ 128) :
    absorb (k + 1) msg t h = compress h (words msg) (t + msg.length) true := by
  rw [absorb, if_pos hm]

theorem digest_length (s : List Nat) : (digest s).length = 64 := rfl

theorem constLoop_stream : ∀ (k : Nat) (s : List Nat) (h : Row4 × Row4) (t : Nat) (buf : List Nat) (j : Nat), j ≤ s.length →
    buf.length = 0 ∨ buf.length = 64 ∨ buf.length = 128 →
    (∀ n x, absorb (n + j) (s ++ x) 0 start = absorb n (buf ++ x) t h) →
    constLoop k s = constStream k h t buf (digest s)
  | 0, _, _, _, _, _, _, _, _ => rfl
  | k + 1, s, h, t, buf, j, hj, hb, hi => by
    have hd := digest_length s
    have hne : digest s ≠ [] := by intro e; rw [e] at hd; exact absurd hd (by decide)
    rw [constLoop, constStream]
    have hs : s.length + (digest s).length + 1 = (s.length + 64 - j) + 1 + j := by rw [hd]; omega
    have hD : digest (s ++ digest s) = out (absorb ((s.length + 64 - j) + 1 + j) (s ++ digest s) 0 start) := by
      rw [← hs, ← List.length_append]; rfl
    dsimp only
    split
    · rename_i hf
      have hi' : ∀ n x, absorb (n + (j + 1)) (s ++ digest s ++ x) 0 start =
          absorb n (digest s ++ x) (t + 128) (compress h (words buf) (t + 128) false) := by
        intro n x
        rw [List.append_assoc, ← absorb_long n t h hf (List.append_ne_nil_of_left_ne_nil hne x), ← hi]
        congr 1
        omega
      have e : digest (s ++ digest s) = out (compress (compress h (words buf) (t + 128) false) (words (digest s))
          (t + 128 + (digest s).length) true) := by
        have := hi' (s.length + 64 - j - 1 + 1) []
        rw [List.append_nil, List.append_nil, absorb_short _ _ _ (by rw [hd]; decide)] at this
        rw [hD, ← this]
        congr 2
        omega
      rw [← e, constLoop_stream k (s ++ digest s) _ _ _ (j + 1) (by rw [List.length_append, hd]; omega) (by rw [hd]; decide) hi']
    · rename_i hf
      have hi' : ∀ n x, absorb (n + j) (s ++ digest s ++ x) 0 start = absorb n (buf ++ digest s ++ x) t h := by
        intro n x
        rw [List.append_assoc, List.append_assoc, hi]
      have hl : (buf ++ digest s).length = 64 ∨ (buf ++ digest s).length = 128 := by
        rw [List.length_append, hd]
        omega
      have e : digest (s ++ digest s) = out (compress h (words (buf ++ digest s)) (t + (buf ++ digest s).length) true) := by
        have := hi' (s.length + 64 - j + 1) []
        rw [List.append_nil, List.append_nil, absorb_short _ _ _ (by omega)] at this
        rw [hD, ← this]
      rw [← e, constLoop_stream k (s ++ digest s) _ _ _ j (by rw [List.length_append]; omega) (Or.inr hl) hi']

theorem constLoop_start (k : Nat) : constLoop k [] = constStream k start 0 [] (digest []) :=
  constLoop_stream k [] start 0 [] 0 (Nat.le_refl _) (Or.inl rfl) fun _ _ => rfl

end Kogarashi.Nova.Blake
