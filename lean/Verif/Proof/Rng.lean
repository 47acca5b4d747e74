import Verif.Model.Rng
import Verif.Spec.Drbg
import Verif.Proof.Fips202
import Verif.Proof.Toom
/-!
# Proofs about `rng.c`
-/
namespace Saber
open Spec Spec.Drbg

/-! ### Big-endian numbers -/

@[simp] theorem length_toBE (n x : Nat) : (toBE n x).length = n := by simp [toBE]

theorem toBE_succ (n x : Nat) : toBE (n + 1) x = toBE n (x / 256) ++ [BitVec.ofNat 8 x] := by
  unfold toBE
  rw [range_map_succ]
  congr 1
  · apply List.map_congr_left
    intro i hi
    rw [List.mem_range] at hi
    rw [Nat.div_div_eq_div_mul, ← Nat.pow_succ']
    congr 3; omega
  · simp

theorem ofBE_append (a : List Byte) (b : Byte) : ofBE (a ++ [b]) = 256 * ofBE a + b.toNat := by simp [ofBE]

theorem ofBE_toBE (n x : Nat) : ofBE (toBE n x) = x % 256 ^ n := by
  induction n generalizing x with
  | zero => simp [toBE, ofBE, Nat.mod_one]
  | succ n ih =>
    rw [toBE_succ, ofBE_append, ih, Nat.pow_succ', Nat.mod_mul, BitVec.toNat_ofNat]
    omega

theorem toBE_ofBE (bs : List Byte) : toBE bs.length (ofBE bs) = bs := by
  induction bs using List.reverseRecOn with
  | nil => rfl
  | append_singleton bs b ih =>
    have hb := b.isLt
    rw [List.length_append, List.length_singleton, toBE_succ, ofBE_append, show (256 * ofBE bs + b.toNat) / 256 = ofBE bs by omega, ih]
    congr 2
    apply BitVec.eq_of_toNat_eq
    rw [BitVec.toNat_ofNat]; omega

theorem toBE_mod (n x : Nat) : toBE n (x % 256 ^ n) = toBE n x := by
  have := toBE_ofBE (toBE n x)
  rwa [ofBE_toBE, length_toBE] at this

theorem incCtr_ok (k : Nat) : ∀ (pre suf : List Byte) (x : Nat),
    incCtr (pre ++ toBE k x ++ suf) pre.length k = .ok (pre ++ toBE k (x + 1) ++ suf) := by
  induction k with
  | zero => intro pre suf x; rfl
  | succ k ih =>
    intro pre suf x
    unfold incCtr
    rw [toBE_succ]
    have e : pre ++ (toBE k (x / 256) ++ [BitVec.ofNat 8 x]) ++ suf = pre ++ toBE k (x / 256) ++ (BitVec.ofNat 8 x :: suf) := by simp
    have hl : (pre ++ toBE k (x / 256)).length = pre.length + k := by simp
    have hset : ∀ b : Byte, (pre ++ toBE k (x / 256) ++ (BitVec.ofNat 8 x :: suf)).set (pre.length + k) b = pre ++ toBE k (x / 256) ++ (b :: suf) := by
      intro b
      rw [← hl, List.set_append_right _ _ (le_refl _), Nat.sub_self]; rfl
    rw [e, rd_ok 0 (by simp), ok_bind, wr_ok (by simp), wr_ok (by simp), hset, hset]
    have hg : (pre ++ toBE k (x / 256) ++ (BitVec.ofNat 8 x :: suf)).getD (pre.length + k) 0 = BitVec.ofNat 8 x := by
      rw [List.getD_eq_getElem?_getD, List.getElem?_append_right (by simp), hl, Nat.sub_self]; rfl
    rw [hg, toBE_succ]
    by_cases h : x % 256 = 255
    · have h1 : BitVec.ofNat 8 x = 0xff := by
        apply BitVec.eq_of_toNat_eq; rw [BitVec.toNat_ofNat]; exact h
      rw [if_pos h1, ok_bind, ih, show (x + 1) / 256 = x / 256 + 1 by omega]
      have h2 : BitVec.ofNat 8 (x + 1) = 0 := by
        apply BitVec.eq_of_toNat_eq
        rw [BitVec.toNat_ofNat]
        show (x + 1) % 256 = 0
        omega
      rw [h2]; simp
    · have h1 : ¬ BitVec.ofNat 8 x = 0xff := by
        intro h2
        have := congrArg BitVec.toNat h2
        rw [BitVec.toNat_ofNat] at this
        exact h this
      rw [if_neg h1, show (x + 1) / 256 = x / 256 by omega]
      have h2 : BitVec.ofNat 8 (x + 1) = BitVec.ofNat 8 x + 1 := by rw [BitVec.ofNat_add]; rfl
      rw [h2]; simp

theorem incCtr_16 (x : Nat) : incCtr (toBE 16 x) 0 16 = .ok (toBE 16 (x + 1)) := by
  have := incCtr_ok 16 [] [] x
  simpa using this

/-! ### The DRBG -/

/-- The block cipher returns one block. -/
def BlockCipher (E : Cipher) : Prop := ∀ k b, (E k b).length = 16

theorem length_stream {E : Cipher} (hE : BlockCipher E) (s : State) (n : Nat) : (stream E s n).length = 16 * n := by
  unfold stream
  rw [length_flatMap_range 16 _ (fun j => hE _ _)]

theorem stream_succ (E : Cipher) (s : State) (n : Nat) : stream E s (n + 1) = stream E s n ++ E s.key (toBE 16 (s.v + n + 1)) := by
  simp [stream, List.range_succ]

theorem stream_succ' (E : Cipher) (k : List Byte) (v n : Nat) :
    stream E ⟨k, v⟩ (n + 1) = E k (toBE 16 (v + 1)) ++ stream E ⟨k, v + 1⟩ n := by
  simp only [stream, List.range_succ_eq_map, List.flatMap_cons, List.flatMap_map]
  congr 2
  funext i
  congr 2
  omega

theorem AES256_ECB_ok {E : Cipher} (hE : BlockCipher E) (key ctr buffer : List Byte) (off : Nat) (h : off + 16 ≤ buffer.length) :
    AES256_ECB E key ctr buffer off = .ok (writeAt buffer off (E key ctr)) := by
  unfold AES256_ECB
  rw [wrs_ok _ _ _ (by rw [hE]; exact h)]

theorem xorLoop_ok (a b : List Byte) (ha : a.length = 48) (hb : b.length = 48) :
    (loop 48 a fun i a => do
      let x ← rd a i
      let y ← rd b i
      wr a i (x ^^^ y)) = .ok (Drbg.xor a b) := by
  rw [loop_rows 48 a ha 0 (fun i => a.getD i 0 ^^^ b.getD i 0)]
  · congr 1
    apply ext_getD 0
    · simp [Drbg.xor, ha, hb]
    · intro i hi
      simp only [List.length_map, List.length_range] at hi
      rw [getD_map_range _ _ _ _ hi]
      simp only [Drbg.xor]
      rw [List.getD_eq_getElem?_getD, List.getD_eq_getElem?_getD, List.getD_eq_getElem?_getD, List.getElem?_zipWith,
        List.getElem?_eq_getElem (show i < a.length by omega), List.getElem?_eq_getElem (show i < b.length by omega)]
      rfl
  · intro i a' hi hl hr
    rw [rd_ok 0 (by omega), ok_bind, rd_ok 0 (by omega), ok_bind, wr_ok (by omega), hr]

theorem xor_zero (a : List Byte) (n : Nat) (h : a.length ≤ n) : Drbg.xor a (List.replicate n 0) = a := by
  apply ext_getD 0
  · simp [Drbg.xor, h]
  · intro i hi
    simp only [Drbg.xor, List.length_zipWith, List.length_replicate] at hi
    simp only [Drbg.xor]
    rw [List.getD_eq_getElem?_getD, List.getD_eq_getElem?_getD, List.getElem?_zipWith,
        List.getElem?_eq_getElem (show i < a.length by omega), List.getElem?_eq_getElem (show i < (List.replicate n (0 : Byte)).length by simp; omega)]
    simp

theorem length_xor (a b : List Byte) : (Drbg.xor a b).length = min a.length b.length := by simp [Drbg.xor]

theorem xorData_ok (a : List Byte) (ha : a.length = 48) (p : Option (List Byte)) (hp : ∀ d, p = some d → d.length = 48) :
    xorData a p = .ok (Drbg.xor a (p.getD (List.replicate 48 0))) := by
  cases p with
  | none => exact congrArg Except.ok (xor_zero _ _ (by omega)).symm
  | some d => exact xorLoop_ok _ _ ha (hp d rfl)

theorem Update_ok {E : Cipher} (hE : BlockCipher E) (pd : Option (List Byte)) (hpd : ∀ d, pd = some d → d.length = 48)
    (Key V : List Byte) (hK : Key.length = 32) (hV : V.length = 16) :
    AES256_CTR_DRBG_Update E pd Key V =
      let s := update E ⟨Key, ofBE V⟩ (pd.getD (List.replicate 48 0))
      .ok (s.key, toBE 16 s.v) := by
  unfold AES256_CTR_DRBG_Update
  obtain ⟨⟨V', t⟩, hl, hV', ht⟩ := loop_inv (n := 3) (s := (V, uninit 8 70 48))
    (body := fun i (x : List Byte × List Byte) => (do
      let V ← incCtr x.1 0 16
      let temp ← AES256_ECB E Key V x.2 (16 * i)
      pure (V, temp) : CM (List Byte × List Byte)))
    (fun i (s : List Byte × List Byte) => s.1 = toBE 16 (ofBE V + i) ∧ s.2 = writeAt (uninit 8 70 48) 0 (stream E ⟨Key, ofBE V⟩ i))
    (by
      refine ⟨?_, ?_⟩
      · have := toBE_ofBE V
        rw [hV] at this
        exact this.symm
      · exact (writeAt_nil _ _).symm)
    (by
      rintro i ⟨a, b⟩ hi ⟨ha, hb⟩
      dsimp only at ha hb ⊢
      subst ha; subst hb
      have hs := length_stream hE ⟨Key, ofBE V⟩ i
      rw [incCtr_16, ok_bind, AES256_ECB_ok hE _ _ _ _ (by rw [length_writeAt _ _ _ (by simp; omega)]; simp; omega), ok_bind]
      refine Ok.pure ⟨rfl, ?_⟩
      have := writeAt_append (uninit 8 70 48) 0 (stream E ⟨Key, ofBE V⟩ i) (E Key (toBE 16 (ofBE V + i + 1))) (by rw [hE]; simp; omega)
      rw [hs, Nat.zero_add] at this
      rw [this, stream_succ])
  have hs := length_stream hE ⟨Key, ofBE V⟩ 3
  dsimp only at hV' ht
  rw [writeAt_full _ _ (by simp; omega)] at ht
  change loop 3 (V, uninit 8 70 48) _ = _ at hl
  refine Eq.trans (congrArg (· >>= _) hl) ?_
  rw [ok_bind]
  dsimp only
  subst ht
  subst hV'
  have hx : (Drbg.xor (stream E ⟨Key, ofBE V⟩ 3) (pd.getD (List.replicate 48 0))).length = 48 := by
    rw [length_xor, hs]
    cases pd with
    | none => simp
    | some d => simp [hpd d rfl]
  have hm := xorData_ok (stream E ⟨Key, ofBE V⟩ 3) hs pd hpd
  rw [hm, ok_bind]
  unfold update
  dsimp only
  generalize Drbg.xor (stream E ⟨Key, ofBE V⟩ 3) (pd.getD (List.replicate 48 0)) = t at *
  have e : (t.drop 32).length = 16 := by rw [List.length_drop]; omega
  rw [memcpy_ok _ _ _ _ _ (by omega) (by omega), ok_bind, memcpy_ok _ _ _ _ _ (by omega) (by simp), ok_bind, List.drop_zero,
    writeAt_full _ _ (by simp; omega), writeAt_full _ _ (by simp; omega), List.take_of_length_le (show (t.drop 32).length ≤ 16 by omega)]
  have := toBE_ofBE (t.drop 32)
  rw [e] at this
  rw [this]
  rfl

/-- The state of the specification that a context represents. -/
def DRBG.abs (ctx : DRBG) : State := ⟨ctx.Key, ofBE ctx.V⟩

/-- Sizes of the arrays of a context. -/
def DRBG.WF (ctx : DRBG) : Prop := ctx.Key.length = 32 ∧ ctx.V.length = 16

theorem length_update_key {E : Cipher} (hE : BlockCipher E) (s : State) (d : List Byte) (hd : d.length = 48) :
    (update E s d).key.length = 32 := by
  unfold update
  simp [length_xor, length_stream hE, hd]

theorem ofBE_lt (bs : List Byte) : ofBE bs < 256 ^ bs.length := by
  induction bs using List.reverseRecOn with
  | nil => simp [ofBE]
  | append_singleton bs b ih =>
    have := b.isLt
    rw [ofBE_append, List.length_append, List.length_singleton, Nat.pow_succ]
    omega

theorem update_v_lt {E : Cipher} (hE : BlockCipher E) (s : State) (d : List Byte) (hd : d.length = 48) :
    (update E s d).v < 256 ^ 16 := by
  unfold update
  dsimp only
  have := ofBE_lt ((Drbg.xor (stream E s 3) d).drop 32)
  rw [List.length_drop, length_xor, length_stream hE, hd] at this
  exact this

theorem randombytes_init_ok {E : Cipher} (hE : BlockCipher E) (entropy : List Byte) (he : 48 ≤ entropy.length)
    (pers : Option (List Byte)) (hp : ∀ d, pers = some d → d.length = 48) (ctx : DRBG) (hw : ctx.WF) :
    Ok (randombytes_init E entropy pers ctx) fun ctx' =>
      ctx'.WF ∧ ctx'.reseed_counter = 1 ∧ ctx'.abs = instantiate E (entropy.take 48) (pers.getD (List.replicate 48 0)) := by
  unfold randombytes_init
  dsimp only
  rw [memcpy_ok _ _ _ _ _ (by omega) (by simp), ok_bind, List.drop_zero, writeAt_full _ _ (by simp; omega)]
  have hl : (entropy.take 48).length = 48 := by simp; omega
  have hm := xorData_ok _ hl pers hp
  have hx : (Drbg.xor (entropy.take 48) (pers.getD (List.replicate 48 0))).length = 48 := by
    rw [length_xor, hl]
    cases pers with
    | none => simp
    | some d => simp [hp d rfl]
  rw [hm, ok_bind, memset_ok _ _ _ _ (by rw [hw.1]), ok_bind, memset_ok _ _ _ _ (by rw [hw.2]), ok_bind,
    writeAt_full _ _ (by simp [hw.1]), writeAt_full _ _ (by simp [hw.2]),
    Update_ok hE _ (by rintro d h; cases h; exact hx) _ _ (by simp) (by simp)]
  dsimp only
  rw [ok_bind]
  have e0 : ofBE (List.replicate 16 0) = 0 := by decide
  refine Ok.pure ⟨⟨length_update_key hE _ _ hx, by simp⟩, rfl, ?_⟩
  unfold DRBG.abs instantiate
  dsimp only
  rw [ofBE_toBE, e0]
  have := update_v_lt hE ⟨List.replicate 32 0, 0⟩ _ hx
  rw [Option.getD_some, Nat.mod_eq_of_lt this]

theorem blocks_step (n : Nat) (h : 15 < n) : blocks n = blocks (n - 16) + 1 := by unfold blocks; omega

theorem randombytesLoop_ok {E : Cipher} (hE : BlockCipher E) (Key : List Byte) (xlen : Nat) :
    ∀ (v : Nat) (x : List Byte) (off : Nat) (i : Nat), i + xlen < 2147483648 → off + i + xlen ≤ x.length →
    randombytesLoop E Key (toBE 16 v) x off i xlen =
      .ok (writeAt x (off + i) ((stream E ⟨Key, v⟩ (blocks xlen)).take xlen), toBE 16 (v + blocks xlen)) := by
  induction xlen using Nat.strongRecOn with
  | ind xlen ih =>
    intro v x off i hi hx
    unfold randombytesLoop
    by_cases h0 : 0 < xlen
    · rw [dif_pos h0, incCtr_16, ok_bind, AES256_ECB_ok hE _ _ _ _ (by simp), ok_bind, writeAt_full _ _ (by simp [hE _ _])]
      have hb := hE Key (toBE 16 (v + 1))
      by_cases h1 : 15 < xlen
      · rw [dif_pos h1, memcpy_ok _ _ _ _ _ (by omega) (by simp; omega), ok_bind, iadd_ok (by omega), ok_bind]
        have := ih (xlen - 16) (by omega) (v + 1) (writeAt x (off + i) (E Key (toBE 16 (v + 1)))) off (i + 16) (by omega)
          (by rw [length_writeAt _ _ _ (by omega)]; omega)
        rw [List.drop_zero, List.take_of_length_le (by omega), Int.toNat_natCast]
        push_cast at this
        rw [this, blocks_step xlen h1, stream_succ', List.take_append, hb, List.take_of_length_le (show (E Key (toBE 16 (v + 1))).length ≤ xlen by omega)]
        have e := writeAt_append x (off + i) (E Key (toBE 16 (v + 1))) ((stream E ⟨Key, v + 1⟩ (blocks (xlen - 16))).take (xlen - 16))
          (by rw [hb, List.length_take]; omega)
        rw [hb] at e
        rw [show off + (i + 16) = off + i + 16 by omega, e, show v + 1 + blocks (xlen - 16) = v + (blocks (xlen - 16) + 1) by omega]
      · rw [dif_neg h1, memcpy_ok _ _ _ _ _ (by omega) (by simp; omega), ok_bind, List.drop_zero, Int.toNat_natCast]
        have : blocks xlen = 1 := by unfold blocks; omega
        rw [this, stream_succ']
        simp [stream]
    · have : xlen = 0 := by omega
      subst this
      rw [dif_neg h0]
      simp [blocks]

theorem randombytesLoop_overflow {E : Cipher} (hE : BlockCipher E) (Key : List Byte) (xlen : Nat) :
    ∀ (v : Nat) (x : List Byte) (off : Nat) (i : Nat), i % 16 = 0 → i < 2147483648 → 2147483648 ≤ i + xlen → off + i + xlen ≤ x.length →
    randombytesLoop E Key (toBE 16 v) x off i xlen = .error .signedOverflow := by
  induction xlen using Nat.strongRecOn with
  | ind xlen ih =>
    intro v x off i hm hi2 hi hx
    unfold randombytesLoop
    have h1 : 15 < xlen := by omega
    have hb := hE Key (toBE 16 (v + 1))
    rw [dif_pos (by omega), incCtr_16, ok_bind, AES256_ECB_ok hE _ _ _ _ (by simp), ok_bind, writeAt_full _ _ (by simp [hE _ _]),
      dif_pos h1, memcpy_ok _ _ _ _ _ (by omega) (by simp; omega), ok_bind, List.drop_zero, List.take_of_length_le (by omega), Int.toNat_natCast]
    by_cases h : i + 16 < 2147483648
    · rw [iadd_ok (by omega), ok_bind]
      have := ih (xlen - 16) (by omega) (v + 1) (writeAt x (off + i) (E Key (toBE 16 (v + 1)))) off (i + 16) (by omega) h (by omega)
        (by rw [length_writeAt _ _ _ (by omega)]; omega)
      push_cast at this
      exact this
    · have : iadd (i : Int) 16 = .error .signedOverflow := by
        unfold iadd ckInt
        rw [if_neg (by omega)]
      rw [this]; rfl

/-- What `randombytes` computes, in terms of the specification. -/
def drbgDraw (E : Cipher) (n : Nat) (ctx : DRBG) : List Byte × DRBG :=
  ((generate E ctx.abs n).1, ⟨(generate E ctx.abs n).2.key, toBE 16 (generate E ctx.abs n).2.v, ctx.reseed_counter + 1⟩)

theorem toBE_ofBE16 (V : List Byte) (h : V.length = 16) : toBE 16 (ofBE V) = V := by
  have := toBE_ofBE V
  rwa [h] at this

theorem stream_mod (E : Cipher) (k : List Byte) (v n : Nat) : stream E ⟨k, v % 256 ^ 16⟩ n = stream E ⟨k, v⟩ n := by
  unfold stream
  dsimp only
  congr 1
  funext i
  rw [← toBE_mod 16 (v % 256 ^ 16 + i + 1), ← toBE_mod 16 (v + i + 1)]
  congr 2
  omega

theorem randombytes_ok {E : Cipher} (hE : BlockCipher E) (x : List Byte) (off n : Nat) (ctx : DRBG) (hw : ctx.WF)
    (hr : -2147483648 ≤ ctx.reseed_counter ∧ ctx.reseed_counter < 2147483647) (hn : n < 2147483648) (hx : off + n ≤ x.length) :
    randombytes E x off n ctx = .ok (writeAt x off (drbgDraw E n ctx).1, (drbgDraw E n ctx).2) := by
  unfold randombytes
  have := randombytesLoop_ok hE ctx.Key n (ofBE ctx.V) x off 0 (by omega) (by omega)
  rw [toBE_ofBE16 _ hw.2] at this
  rw [show (0 : Int) = ((0 : Nat) : Int) from rfl, this, ok_bind]
  dsimp only
  rw [Update_ok hE none (by simp) _ _ hw.1 (by simp)]
  dsimp only
  rw [ok_bind]
  dsimp only
  rw [iadd_ok (by omega), ok_bind]
  have e : update E ⟨ctx.Key, ofBE (toBE 16 (ofBE ctx.V + blocks n))⟩ (none.getD (List.replicate 48 0)) =
      update E ⟨ctx.Key, ofBE ctx.V + blocks n⟩ (List.replicate 48 0) := by
    unfold update
    rw [ofBE_toBE, stream_mod]; rfl
  rw [e]
  rfl

theorem randombytes_overflow {E : Cipher} (hE : BlockCipher E) (x : List Byte) (off n : Nat) (ctx : DRBG) (hw : ctx.WF)
    (hn : 2147483648 ≤ n) (hx : off + n ≤ x.length) : randombytes E x off n ctx = .error .signedOverflow := by
  unfold randombytes
  have := randombytesLoop_overflow hE ctx.Key n (ofBE ctx.V) x off 0 rfl (by omega) (by omega) (by omega)
  rw [toBE_ofBE16 _ hw.2] at this
  rw [show (0 : Int) = ((0 : Nat) : Int) from rfl, this, error_bind]

theorem randombytes_counter_overflow {E : Cipher} (hE : BlockCipher E) (x : List Byte) (off n : Nat) (ctx : DRBG) (hw : ctx.WF)
    (hr : ctx.reseed_counter = 2147483647) (hn : n < 2147483648) (hx : off + n ≤ x.length) :
    randombytes E x off n ctx = .error .signedOverflow := by
  unfold randombytes
  have := randombytesLoop_ok hE ctx.Key n (ofBE ctx.V) x off 0 (by omega) (by omega)
  rw [toBE_ofBE16 _ hw.2] at this
  rw [show (0 : Int) = ((0 : Nat) : Int) from rfl, this, ok_bind]
  dsimp only
  rw [Update_ok hE none (by simp) _ _ hw.1 (by simp)]
  dsimp only
  rw [ok_bind, hr]
  rfl

theorem drbgDraw_abs {E : Cipher} (hE : BlockCipher E) (n : Nat) (ctx : DRBG) : (drbgDraw E n ctx).2.abs = (generate E ctx.abs n).2 := by
  unfold drbgDraw DRBG.abs
  dsimp only
  rw [ofBE_toBE]
  have := update_v_lt hE ⟨ctx.Key, ofBE ctx.V + blocks n⟩ (List.replicate 48 0) (by simp)
  unfold generate
  dsimp only
  rw [Nat.mod_eq_of_lt this]

theorem drbgDraw_WF {E : Cipher} (hE : BlockCipher E) (n : Nat) (ctx : DRBG) : (drbgDraw E n ctx).2.WF :=
  ⟨length_update_key hE _ _ (by simp), by simp [drbgDraw]⟩

theorem length_drbgDraw {E : Cipher} (hE : BlockCipher E) (n : Nat) (ctx : DRBG) : (drbgDraw E n ctx).1.length = n := by
  unfold drbgDraw generate
  rw [List.length_take, length_stream hE]
  unfold blocks
  omega

end Saber
