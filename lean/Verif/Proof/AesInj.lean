import Verif.Proof.U.AesCipher
/-!
# AES-256 is injective for each key
-/
namespace Saber.U.Aes
open Spec.Aes

theorem sbox_table : ∀ i, i < 256 → (((List.range 256).map fun j => (sbox (BitVec.ofNat 8 j)).toNat).idxOf (sbox (BitVec.ofNat 8 i)).toNat) = i := by
  decide +kernel

theorem sbox_inj {a b : Byte} (h : sbox a = sbox b) : a = b := by
  have ha := sbox_table a.toNat a.isLt
  have hb := sbox_table b.toNat b.isLt
  rw [BitVec.ofNat_toNat, BitVec.setWidth_eq] at ha hb
  rw [h, hb] at ha
  exact BitVec.eq_of_toNat_eq ha.symm

theorem xor_cancel (x y : Byte) : x ^^^ (x ^^^ y) = y := by rw [← BitVec.xor_assoc, BitVec.xor_self, BitVec.zero_xor]

theorem xor_lc (x y z : Byte) : x ^^^ (y ^^^ z) = y ^^^ (x ^^^ z) := by rw [← BitVec.xor_assoc, BitVec.xor_comm x y, BitVec.xor_assoc]

theorem xors_inj {a b k : List Byte} (ha : a.length = k.length) (hb : b.length = k.length) (h : xors a k = xors b k) : a = b := by
  apply ext_getD 0
  · omega
  · intro i hi
    have := congrArg (fun l => l.getD i 0) h
    simp only [xors, List.getD_eq_getElem?_getD, List.getElem?_zipWith] at this
    rw [List.getElem?_eq_getElem hi, List.getElem?_eq_getElem (by omega : i < k.length), List.getElem?_eq_getElem (by omega : i < b.length)] at this
    simp only [Option.getD_some] at this
    rw [List.getD_eq_getElem _ _ hi, List.getD_eq_getElem _ _ (by omega : i < b.length)]
    rw [← xor_cancel k[i] a[i], BitVec.xor_comm k[i] a[i], this, BitVec.xor_comm b[i], xor_cancel]

theorem map_sbox_inj {a b : List Byte} (h : a.map sbox = b.map sbox) : a = b := List.map_injective_iff.2 (fun _ _ => sbox_inj) h

theorem shiftRows_inj {a b : List Byte} (ha : a.length = 16) (hb : b.length = 16) (h : shiftRows a = shiftRows b) : a = b := by
  apply ext_getD 0
  · omega
  · intro i hi
    have := congrArg (fun l => l.getD (i % 4 + 4 * ((i / 4 + 4 - i % 4) % 4)) 0) h
    dsimp only [shiftRows] at this
    rw [getD_map_range _ _ _ _ (by omega), getD_map_range _ _ _ _ (by omega)] at this
    have e : (i % 4 + 4 * ((i / 4 + 4 - i % 4) % 4)) % 4 + 4 * (((i % 4 + 4 * ((i / 4 + 4 - i % 4) % 4)) / 4 + (i % 4 + 4 * ((i / 4 + 4 - i % 4) % 4)) % 4) % 4) = i := by
      omega
    rwa [e] at this

theorem xtime_xor (a b : Byte) : xtime (a ^^^ b) = xtime a ^^^ xtime b := by
  unfold xtime
  rw [BitVec.shiftLeft_xor_distrib, BitVec.getLsbD_xor]
  cases a.getLsbD 7 <;> cases b.getLsbD 7 <;> simp [BitVec.xor_assoc, BitVec.xor_comm, xor_lc, xor_cancel]

theorem gmul2 (b : Byte) : gmul 2 b = xtime b := by
  revert b; decide +kernel

theorem gmul3 (b : Byte) : gmul 3 b = xtime b ^^^ b := by
  revert b; decide +kernel

theorem getD_mix (s : List Byte) (k : Nat) (hk : k < 16) : (mixColumns s).getD k 0 =
    xtime (s.getD k 0) ^^^ xtime (s.getD ((k + 1) % 4 + 4 * (k / 4)) 0) ^^^ s.getD ((k + 1) % 4 + 4 * (k / 4)) 0 ^^^ s.getD ((k + 2) % 4 + 4 * (k / 4)) 0
      ^^^ s.getD ((k + 3) % 4 + 4 * (k / 4)) 0 := by
  rw [mixColumns, getD_map_range _ _ _ _ hk]
  dsimp only
  rw [gmul2, gmul3, show k % 4 + 4 * (k / 4) = k by omega, show (k % 4 + 1) % 4 = (k + 1) % 4 by omega, show (k % 4 + 2) % 4 = (k + 2) % 4 by omega,
    show (k % 4 + 3) % 4 = (k + 3) % 4 by omega, ← BitVec.xor_assoc]

theorem mix2_col (a b c d : Byte) :
    xtime (xtime a ^^^ xtime b ^^^ b ^^^ c ^^^ d) ^^^ xtime (xtime b ^^^ xtime c ^^^ c ^^^ d ^^^ a) ^^^ (xtime b ^^^ xtime c ^^^ c ^^^ d ^^^ a)
      ^^^ (xtime c ^^^ xtime d ^^^ d ^^^ a ^^^ b) ^^^ (xtime d ^^^ xtime a ^^^ a ^^^ b ^^^ c) = a ^^^ (xtime (xtime a) ^^^ xtime (xtime c)) := by
  simp only [xtime_xor]
  generalize xtime (xtime a) = a2, xtime (xtime b) = b2, xtime (xtime c) = c2, xtime (xtime d) = d2
  generalize xtime a = a1, xtime b = b1, xtime c = c1, xtime d = d1
  apply BitVec.eq_of_getLsbD_eq
  intro i _
  simp only [BitVec.getLsbD_xor]
  generalize a.getLsbD i = a, b.getLsbD i = b, c.getLsbD i = c, d.getLsbD i = d
  generalize a1.getLsbD i = a1, b1.getLsbD i = b1, c1.getLsbD i = c1, d1.getLsbD i = d1
  generalize a2.getLsbD i = a2, b2.getLsbD i = b2, c2.getLsbD i = c2, d2.getLsbD i = d2
  revert a b c d a1 b1 c1 d1 a2 b2 c2
  decide +kernel

theorem getD_mix2 (s : List Byte) (k : Nat) (hk : k < 16) : (mixColumns (mixColumns s)).getD k 0 =
    s.getD k 0 ^^^ (xtime (xtime (s.getD k 0)) ^^^ xtime (xtime (s.getD ((k + 2) % 4 + 4 * (k / 4)) 0))) := by
  rw [← mix2_col (s.getD k 0) (s.getD ((k + 1) % 4 + 4 * (k / 4)) 0) (s.getD ((k + 2) % 4 + 4 * (k / 4)) 0) (s.getD ((k + 3) % 4 + 4 * (k / 4)) 0)]
  rw [getD_mix _ _ hk, getD_mix _ _ hk, getD_mix _ _ (by omega), getD_mix _ _ (by omega), getD_mix _ _ (by omega)]
  interval_cases k <;> rfl

theorem mix4_col (a c : Byte) :
    (a ^^^ (xtime (xtime a) ^^^ xtime (xtime c))) ^^^ (xtime (xtime (a ^^^ (xtime (xtime a) ^^^ xtime (xtime c)))) ^^^
      xtime (xtime (c ^^^ (xtime (xtime c) ^^^ xtime (xtime a))))) = a := by
  simp only [xtime_xor, BitVec.xor_assoc, BitVec.xor_comm, xor_lc, xor_cancel, BitVec.xor_self, BitVec.xor_zero]

theorem mix4 (s : List Byte) (hs : s.length = 16) : mixColumns (mixColumns (mixColumns (mixColumns s))) = s := by
  apply ext_getD 0
  · simp [mixColumns, hs]
  · intro k hk
    have hk : k < 16 := by simpa [mixColumns] using hk
    rw [getD_mix2 _ _ hk, getD_mix2 _ _ hk, getD_mix2 _ _ (by omega)]
    have e : ((k + 2) % 4 + 4 * (k / 4) + 2) % 4 + 4 * (((k + 2) % 4 + 4 * (k / 4)) / 4) = k := by omega
    rw [e, mix4_col]

theorem mixColumns_inj {a b : List Byte} (ha : a.length = 16) (hb : b.length = 16) (h : mixColumns a = mixColumns b) : a = b := by
  rw [← mix4 a ha, h, mix4 b hb]

theorem length_shiftRows (s : List Byte) : (shiftRows s).length = 16 := by simp [shiftRows]
theorem length_mixColumns (s : List Byte) : (mixColumns s).length = 16 := by simp [mixColumns]

theorem rounds_inj {key a b : List Byte} (hk : key.length = 32) (ha : a.length = 16) (hb : b.length = 16) (n : Nat) :
    rounds key a n = rounds key b n → a = b := by
  have hl : ∀ (s : List Byte), s.length = 16 → ∀ n, (rounds key s n).length = 16 := by
    intro s hs n
    cases n with
    | zero => exact hs
    | succ n => rw [rounds_succ, length_xors, length_roundKey _ hk, length_mixColumns]; rfl
  induction n with
  | zero => exact id
  | succ n ih =>
    intro h
    rw [rounds_succ, rounds_succ] at h
    have := xors_inj (by rw [length_mixColumns, length_roundKey _ hk]) (by rw [length_mixColumns, length_roundKey _ hk]) h
    have := mixColumns_inj (length_shiftRows _) (length_shiftRows _) this
    have := shiftRows_inj (by rw [List.length_map, hl a ha]) (by rw [List.length_map, hl b hb]) this
    exact ih (map_sbox_inj this)

/-- Different blocks have different encryptions. -/
theorem aes256_inj {key a b : List Byte} (hk : key.length = 32) (ha : a.length = 16) (hb : b.length = 16) (h : aes256 key a = aes256 key b) : a = b := by
  have hx : ∀ s : List Byte, s.length = 16 → (xors s (roundKey key 0)).length = 16 := fun s hs => by rw [length_xors, length_roundKey _ hk, hs]; rfl
  have hl : ∀ (s : List Byte), s.length = 16 → ∀ n, (rounds key s n).length = 16 := by
    intro s hs n
    cases n with
    | zero => exact hs
    | succ n => rw [rounds_succ, length_xors, length_roundKey _ hk, length_mixColumns]; rfl
  have h : xors (shiftRows ((rounds key (xors a (roundKey key 0)) 13).map sbox)) (roundKey key 14)
    = xors (shiftRows ((rounds key (xors b (roundKey key 0)) 13).map sbox)) (roundKey key 14) := h
  have := xors_inj (by rw [length_shiftRows, length_roundKey _ hk]) (by rw [length_shiftRows, length_roundKey _ hk]) h
  have := shiftRows_inj (by rw [List.length_map, hl _ (hx a ha)]) (by rw [List.length_map, hl _ (hx b hb)]) this
  have := rounds_inj hk (hx a ha) (hx b hb) 13 (map_sbox_inj this)
  exact xors_inj (by rw [length_roundKey _ hk, ha]) (by rw [length_roundKey _ hk, hb]) this

end Saber.U.Aes
