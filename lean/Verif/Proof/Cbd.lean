import Verif.Model.Cbd
import Verif.Spec.Cbd
import Verif.Proof.Bits
/-!
# Proofs about `cbd.c`
-/
namespace Saber
open Spec

theorem hammingWeight_succ (n : Nat) (f : Nat → Bool) :
    hammingWeight (n + 1) f = hammingWeight n f + (f n).toNat := by
  simp [hammingWeight, List.range_succ]

theorem hammingWeight_le (n : Nat) (f : Nat → Bool) : hammingWeight n f ≤ n := by
  induction n with
  | zero => simp [hammingWeight]
  | succ n ih =>
    rw [hammingWeight_succ]
    have : (f n).toNat ≤ 1 := by cases f n <;> simp
    omega

theorem hammingWeight_congr {n : Nat} {f g : Nat → Bool} (h : ∀ j < n, f j = g j) :
    hammingWeight n f = hammingWeight n g := by
  induction n with
  | zero => rfl
  | succ n ih => rw [hammingWeight_succ, hammingWeight_succ, ih fun j hj => h j (by omega), h n (by omega)]

/-- The mask `1 + 2^g + ... + 2^(g (n-1))`. -/
def gmask (g : Nat) : Nat → Nat
  | 0 => 0
  | n + 1 => 1 + 2 ^ g * gmask g n

/-- The sum of the masked shifts of `T`. -/
def gsum (g n T : Nat) : Nat → Nat
  | 0 => 0
  | k + 1 => gsum g n T k + ((T >>> k) &&& gmask g n)

theorem and_gmask (g n a : Nat) (hg : 0 < g) :
    a &&& gmask g (n + 1) = a % 2 + 2 ^ g * ((a / 2 ^ g) &&& gmask g n) := by
  have h2 : (2 : Nat) ≤ 2 ^ g := by
    calc 2 = 2 ^ 1 := rfl
      _ ≤ 2 ^ g := Nat.pow_le_pow_right (by omega) hg
  apply Nat.eq_of_testBit_eq
  intro j
  rw [gmask, Nat.testBit_and, Nat.add_comm 1, Nat.add_comm (a % 2), Nat.testBit_two_pow_mul_add _ (by omega),
    Nat.testBit_two_pow_mul_add _ (by omega), Nat.testBit_and]
  by_cases hj : j < g
  · simp only [hj, if_true]
    cases j with
    | zero => simp
    | succ j => simp [Nat.testBit_succ]
  · simp only [hj, if_false]
    congr 1
    rw [← Nat.shiftRight_eq_div_pow, Nat.testBit_shiftRight]
    congr 1; omega

theorem gsum_succ (g n T k : Nat) (hg : 0 < g) :
    gsum g (n + 1) T k = hammingWeight k T.testBit + 2 ^ g * gsum g n (T / 2 ^ g) k := by
  induction k with
  | zero => simp [gsum, hammingWeight]
  | succ k ih =>
    rw [gsum, ih, hammingWeight_succ, and_gmask _ _ _ hg, gsum, Nat.mul_add]
    have e1 : (T >>> k) % 2 = (T.testBit k).toNat := by
      rw [Nat.testBit_eq_decide_div_mod_eq, Nat.shiftRight_eq_div_pow]
      rcases Nat.mod_two_eq_zero_or_one (T / 2 ^ k) with h | h <;> simp [h]
    have e2 : (T >>> k) / 2 ^ g = (T / 2 ^ g) >>> k := by
      rw [Nat.shiftRight_eq_div_pow, Nat.shiftRight_eq_div_pow, Nat.div_div_eq_div_mul, Nat.div_div_eq_div_mul, Nat.mul_comm]
    rw [e1, e2]
    omega

theorem gsum_zero (g T k : Nat) : gsum g 0 T k = 0 := by
  induction k with
  | zero => rfl
  | succ k ih => simp [gsum, ih, gmask]

/-- Hamming weight of the `m`-th group of `g` bits. -/
def hwg (g T m : Nat) : Nat := hammingWeight g fun j => T.testBit (g * m + j)

theorem hwg_le (g T m : Nat) : hwg g T m ≤ g := hammingWeight_le _ _

theorem hwg_div (g T m : Nat) : hwg g (T / 2 ^ g) m = hwg g T (m + 1) := by
  unfold hwg
  apply hammingWeight_congr
  intro j _
  rw [← Nat.shiftRight_eq_div_pow, Nat.testBit_shiftRight]
  congr 1; ring

theorem gsum_step (g n T : Nat) (hg : 0 < g) :
    gsum g (n + 1) T g = hwg g T 0 + 2 ^ g * gsum g n (T / 2 ^ g) g := by
  rw [gsum_succ _ _ _ _ hg]; simp [hwg]

theorem gsum_eight (g T : Nat) (hg : 0 < g) :
    gsum g 8 T g = hwg g T 0 + 2 ^ g * (hwg g T 1 + 2 ^ g * (hwg g T 2 + 2 ^ g * (hwg g T 3 + 2 ^ g * (hwg g T 4 +
      2 ^ g * (hwg g T 5 + 2 ^ g * (hwg g T 6 + 2 ^ g * hwg g T 7)))))) := by
  simp only [gsum_step _ _ _ hg, gsum_zero, hwg_div, Nat.mul_zero, Nat.add_zero, Nat.zero_add, Nat.reduceAdd]

/-- The value of a coefficient computed from two groups of bits. -/
theorem sub_setWidth {w : Nat} (hw : w = 32 ∨ w = 64) (a b : BitVec w) (x y : Nat) (ha : a.toNat = x) (hb : b.toNat = y) (hx : x < 32)
    (hy : y < 32) : (a - b).setWidth 16 = BitVec.ofInt 16 ((x : Int) - (y : Int)) := by
  apply BitVec.eq_of_toNat_eq
  rw [BitVec.toNat_setWidth, BitVec.toNat_sub, ha, hb, BitVec.toNat_ofInt]
  rcases hw with rfl | rfl <;> simp <;> omega

theorem cbdBlk6_eq (t : BitVec 32) : cbdBlk6 t = (List.range 4).map fun r =>
    BitVec.ofInt 16 ((hwg 3 t.toNat (2 * r) : Int) - (hwg 3 t.toNat (2 * r + 1) : Int)) := by
  have hd : (cbdSum 3 0x249249 t).toNat = gsum 3 8 t.toNat 3 := by
    have hm : gmask 3 8 = 0x249249 := rfl
    have hz : (0 : BitVec 32).toNat = 0 := rfl
    have hk : (0x249249 : BitVec 32).toNat = 0x249249 := rfl
    have hle : ∀ k, (t.toNat >>> k) &&& 0x249249 ≤ 0x249249 := fun k => Nat.and_le_right
    have h0 := hle 0; have h1 := hle 1; have h2 := hle 2
    simp only [cbdSum, List.range_succ, List.range_zero, List.nil_append, List.foldl_append, List.foldl_cons,
      List.foldl_nil, gsum, hm, BitVec.toNat_add, BitVec.toNat_and, BitVec.toNat_ushiftRight, hz, hk]
    omega
  rw [gsum_eight 3 _ (by omega)] at hd
  have l := hwg_le 3 t.toNat
  have l0 := l 0; have l1 := l 1; have l2 := l 2; have l3 := l 3; have l4 := l 4; have l5 := l 5; have l6 := l 6; have l7 := l 7
  simp only [cbdBlk6]
  have e7 : ∀ x : Nat, x &&& 7 = x % 8 := fun x => Nat.and_two_pow_sub_one_eq_mod x 3
  generalize cbdSum 3 0x249249 t = d at *
  have c0 : (d &&& 0x7).toNat = hwg 3 t.toNat 0 := by
    simp [BitVec.toNat_and, hd, e7]; omega
  have c1 : ((d >>> 3) &&& 0x7).toNat = hwg 3 t.toNat 1 := by
    simp [BitVec.toNat_and, Nat.shiftRight_eq_div_pow, hd, e7]; omega
  have c2 : ((d >>> 6) &&& 0x7).toNat = hwg 3 t.toNat 2 := by
    simp [BitVec.toNat_and, Nat.shiftRight_eq_div_pow, hd, e7]; omega
  have c3 : ((d >>> 9) &&& 0x7).toNat = hwg 3 t.toNat 3 := by
    simp [BitVec.toNat_and, Nat.shiftRight_eq_div_pow, hd, e7]; omega
  have c4 : ((d >>> 12) &&& 0x7).toNat = hwg 3 t.toNat 4 := by
    simp [BitVec.toNat_and, Nat.shiftRight_eq_div_pow, hd, e7]; omega
  have c5 : ((d >>> 15) &&& 0x7).toNat = hwg 3 t.toNat 5 := by
    simp [BitVec.toNat_and, Nat.shiftRight_eq_div_pow, hd, e7]; omega
  have c6 : ((d >>> 18) &&& 0x7).toNat = hwg 3 t.toNat 6 := by
    simp [BitVec.toNat_and, Nat.shiftRight_eq_div_pow, hd, e7]; omega
  have c7 : (d >>> 21).toNat = hwg 3 t.toNat 7 := by
    simp [Nat.shiftRight_eq_div_pow, hd]; omega
  rw [sub_setWidth (Or.inl rfl) _ _ _ _ c0 c1 (by omega) (by omega), sub_setWidth (Or.inl rfl) _ _ _ _ c2 c3 (by omega) (by omega),
    sub_setWidth (Or.inl rfl) _ _ _ _ c4 c5 (by omega) (by omega), sub_setWidth (Or.inl rfl) _ _ _ _ c6 c7 (by omega) (by omega)]
  rfl

theorem cbdBlk8_eq (t : BitVec 32) : cbdBlk8 t = (List.range 4).map fun r =>
    BitVec.ofInt 16 ((hwg 4 t.toNat (2 * r) : Int) - (hwg 4 t.toNat (2 * r + 1) : Int)) := by
  have hd : (cbdSum 4 0x11111111 t).toNat = gsum 4 8 t.toNat 4 := by
    have hm : gmask 4 8 = 0x11111111 := rfl
    have hz : (0 : BitVec 32).toNat = 0 := rfl
    have hk : (0x11111111 : BitVec 32).toNat = 0x11111111 := rfl
    have hle : ∀ k, (t.toNat >>> k) &&& 0x11111111 ≤ 0x11111111 := fun k => Nat.and_le_right
    have h0 := hle 0; have h1 := hle 1; have h2 := hle 2; have h3 := hle 3
    simp only [cbdSum, List.range_succ, List.range_zero, List.nil_append, List.foldl_append, List.foldl_cons,
      List.foldl_nil, gsum, hm, BitVec.toNat_add, BitVec.toNat_and, BitVec.toNat_ushiftRight, hz, hk]
    omega
  rw [gsum_eight 4 _ (by omega)] at hd
  have l := hwg_le 4 t.toNat
  have l0 := l 0; have l1 := l 1; have l2 := l 2; have l3 := l 3; have l4 := l 4; have l5 := l 5; have l6 := l 6; have l7 := l 7
  simp only [cbdBlk8]
  have e7 : ∀ x : Nat, x &&& 15 = x % 16 := fun x => Nat.and_two_pow_sub_one_eq_mod x 4
  generalize cbdSum 4 0x11111111 t = d at *
  have c0 : (d &&& 0xf).toNat = hwg 4 t.toNat 0 := by
    simp [BitVec.toNat_and, hd, e7]; omega
  have c1 : ((d >>> 4) &&& 0xf).toNat = hwg 4 t.toNat 1 := by
    simp [BitVec.toNat_and, Nat.shiftRight_eq_div_pow, hd, e7]; omega
  have c2 : ((d >>> 8) &&& 0xf).toNat = hwg 4 t.toNat 2 := by
    simp [BitVec.toNat_and, Nat.shiftRight_eq_div_pow, hd, e7]; omega
  have c3 : ((d >>> 12) &&& 0xf).toNat = hwg 4 t.toNat 3 := by
    simp [BitVec.toNat_and, Nat.shiftRight_eq_div_pow, hd, e7]; omega
  have c4 : ((d >>> 16) &&& 0xf).toNat = hwg 4 t.toNat 4 := by
    simp [BitVec.toNat_and, Nat.shiftRight_eq_div_pow, hd, e7]; omega
  have c5 : ((d >>> 20) &&& 0xf).toNat = hwg 4 t.toNat 5 := by
    simp [BitVec.toNat_and, Nat.shiftRight_eq_div_pow, hd, e7]; omega
  have c6 : ((d >>> 24) &&& 0xf).toNat = hwg 4 t.toNat 6 := by
    simp [BitVec.toNat_and, Nat.shiftRight_eq_div_pow, hd, e7]; omega
  have c7 : (d >>> 28).toNat = hwg 4 t.toNat 7 := by
    simp [Nat.shiftRight_eq_div_pow, hd]; omega
  rw [sub_setWidth (Or.inl rfl) _ _ _ _ c0 c1 (by omega) (by omega), sub_setWidth (Or.inl rfl) _ _ _ _ c2 c3 (by omega) (by omega),
    sub_setWidth (Or.inl rfl) _ _ _ _ c4 c5 (by omega) (by omega), sub_setWidth (Or.inl rfl) _ _ _ _ c6 c7 (by omega) (by omega)]
  rfl

theorem cbdBlk10_eq (t : BitVec 64) : cbdBlk10 t = (List.range 4).map fun r =>
    BitVec.ofInt 16 ((hwg 5 t.toNat (2 * r) : Int) - (hwg 5 t.toNat (2 * r + 1) : Int)) := by
  have hd : (cbdSum 5 0x0842108421 t).toNat = gsum 5 8 t.toNat 5 := by
    have hm : gmask 5 8 = 0x0842108421 := rfl
    have hz : (0 : BitVec 64).toNat = 0 := rfl
    have hk : (0x0842108421 : BitVec 64).toNat = 0x0842108421 := rfl
    have hle : ∀ k, (t.toNat >>> k) &&& 0x0842108421 ≤ 0x0842108421 := fun k => Nat.and_le_right
    have h0 := hle 0; have h1 := hle 1; have h2 := hle 2; have h3 := hle 3; have h4 := hle 4
    simp only [cbdSum, List.range_succ, List.range_zero, List.nil_append, List.foldl_append, List.foldl_cons,
      List.foldl_nil, gsum, hm, BitVec.toNat_add, BitVec.toNat_and, BitVec.toNat_ushiftRight, hz, hk]
    omega
  rw [gsum_eight 5 _ (by omega)] at hd
  have l := hwg_le 5 t.toNat
  have l0 := l 0; have l1 := l 1; have l2 := l 2; have l3 := l 3; have l4 := l 4; have l5 := l 5; have l6 := l 6; have l7 := l 7
  simp only [cbdBlk10]
  have e7 : ∀ x : Nat, x &&& 31 = x % 32 := fun x => Nat.and_two_pow_sub_one_eq_mod x 5
  generalize cbdSum 5 0x0842108421 t = d at *
  have c0 : (d &&& 0x1f).toNat = hwg 5 t.toNat 0 := by
    simp [BitVec.toNat_and, hd, e7]; omega
  have c1 : ((d >>> 5) &&& 0x1f).toNat = hwg 5 t.toNat 1 := by
    simp [BitVec.toNat_and, Nat.shiftRight_eq_div_pow, hd, e7]; omega
  have c2 : ((d >>> 10) &&& 0x1f).toNat = hwg 5 t.toNat 2 := by
    simp [BitVec.toNat_and, Nat.shiftRight_eq_div_pow, hd, e7]; omega
  have c3 : ((d >>> 15) &&& 0x1f).toNat = hwg 5 t.toNat 3 := by
    simp [BitVec.toNat_and, Nat.shiftRight_eq_div_pow, hd, e7]; omega
  have c4 : ((d >>> 20) &&& 0x1f).toNat = hwg 5 t.toNat 4 := by
    simp [BitVec.toNat_and, Nat.shiftRight_eq_div_pow, hd, e7]; omega
  have c5 : ((d >>> 25) &&& 0x1f).toNat = hwg 5 t.toNat 5 := by
    simp [BitVec.toNat_and, Nat.shiftRight_eq_div_pow, hd, e7]; omega
  have c6 : ((d >>> 30) &&& 0x1f).toNat = hwg 5 t.toNat 6 := by
    simp [BitVec.toNat_and, Nat.shiftRight_eq_div_pow, hd, e7]; omega
  have c7 : (d >>> 35).toNat = hwg 5 t.toNat 7 := by
    simp [Nat.shiftRight_eq_div_pow, hd]; omega
  rw [sub_setWidth (Or.inr rfl) _ _ _ _ c0 c1 (by omega) (by omega), sub_setWidth (Or.inr rfl) _ _ _ _ c2 c3 (by omega) (by omega),
    sub_setWidth (Or.inr rfl) _ _ _ _ c4 c5 (by omega) (by omega), sub_setWidth (Or.inr rfl) _ _ _ _ c6 c7 (by omega) (by omega)]
  rfl

theorem bitAt_drop (bs : List Byte) (off n : Nat) : bitAt (bs.drop off) n = bitAt bs (8 * off + n) := by
  unfold bitAt
  rw [show (8 * off + n) / 8 = off + n / 8 by omega, show (8 * off + n) % 8 = n % 8 by omega]
  simp

theorem load_littleendian_ok (x : List Byte) (off n : Nat) (hn : 0 < n) (h : off + n ≤ x.length) :
    Ok (load_littleendian x off n) fun r => ∀ k, k < 64 → r.getLsbD k = (decide (k < 8 * n) && bitAt x (8 * off + k)) := by
  unfold load_littleendian
  rw [rd_ok 0 (by omega), ok_bind]
  have key := loop_inv (n := n - 1) (s := (x.getD off 0).setWidth 64)
    (body := fun i r => do
      let v ← rd x (off + (i + 1))
      pure (r ||| (v.setWidth 64 <<< (8 * (i + 1)))))
    (fun i (r : BitVec 64) => ∀ k, k < 64 → r.getLsbD k = (decide (k < 8 * (i + 1)) && bitAt x (8 * off + k))) ?_ ?_
  · rwa [show n - 1 + 1 = n by omega] at key
  · intro k hk
    rw [BitVec.getLsbD_setWidth]
    by_cases h8 : k < 8
    · simp only [hk, h8, bitAt, decide_true, Bool.true_and, Nat.zero_add, Nat.mul_one]
      rw [show (8 * off + k) / 8 = off by omega, show (8 * off + k) % 8 = k by omega]
    · rw [BitVec.getLsbD_of_ge _ _ (by omega)]; simp [h8]
  · intro i r hi hr
    rw [rd_ok 0 (by omega), ok_bind]
    refine Ok.pure ?_
    intro k hk
    rw [BitVec.getLsbD_or, hr k hk, BitVec.getLsbD_shiftLeft, BitVec.getLsbD_setWidth]
    by_cases h1 : k < 8 * (i + 1)
    · have : k < 8 * (i + 1 + 1) := by omega
      simp [h1, this]
    · by_cases h2 : k < 8 * (i + 1 + 1)
      · simp only [h1, h2, hk, bitAt, decide_true, decide_false, Bool.false_and, Bool.true_and, Bool.false_or, Bool.not_false,
          show k - 8 * (i + 1) < 64 by omega]
        rw [show (8 * off + k) / 8 = off + (i + 1) by omega, show (8 * off + k) % 8 = k - 8 * (i + 1) by omega]
      · rw [BitVec.getLsbD_of_ge _ (k - 8 * (i + 1)) (by omega)]
        simp [h1, h2]

/-- The weights of the bit groups of a loaded word. -/
theorem hwg_load (x : List Byte) (off g : Nat) (hg : 3 ≤ g ∧ g ≤ 5) (r : BitVec 64)
    (hr : ∀ k, k < 64 → r.getLsbD k = (decide (k < 8 * g) && bitAt x (8 * off + k))) (m : Nat) (hm : m < 8) :
    hwg g r.toNat m = hammingWeight g fun j => bitAt x (8 * off + (g * m + j)) := by
  unfold hwg
  apply hammingWeight_congr
  intro j hj
  have hlt : g * m + j < 8 * g := by
    have : g * m ≤ g * 7 := Nat.mul_le_mul_left _ (by omega)
    omega
  rw [BitVec.testBit_toNat, hr _ (by omega)]
  simp [hlt]

theorem centredBinomial_blocks (g : Nat) (buf : List Byte) (off : Nat)
    (vs : Nat → List (BitVec 16)) (hw : ∀ j, (vs j).length = 4)
    (h : ∀ i, i < 64 → vs i = (List.range 4).map fun r => BitVec.ofInt 16
      ((hammingWeight g fun j => bitAt buf (8 * (off + g * i) + (g * (2 * r) + j)) : Int) -
        (hammingWeight g fun j => bitAt buf (8 * (off + g * i) + (g * (2 * r + 1) + j)) : Int))) :
    (List.range 64).flatMap vs = ofP (centredBinomial (2 * g) (buf.drop off)) := by
  apply ext_getD 0
  · rw [length_flatMap_range 4 _ hw]; simp
  · intro m hm
    rw [length_flatMap_range 4 _ hw] at hm
    rw [getD_flatMap_range 4 (by omega) vs hw 0 64 m hm, h _ (by omega), getD_map_range _ _ _ _ (by omega), ofP,
      getD_map_range _ _ _ _ (by omega)]
    congr 1
    simp only [centredBinomial, bitAt_drop, Fin.ofNat, Nat.mod_eq_of_lt (show m < 256 by omega)]
    rw [show 2 * g / 2 = g by omega]
    have e : 8 * (g * (m / 4)) + g * (2 * (m % 4)) = 2 * g * m := by
      conv_rhs => rw [← Nat.div_add_mod m 4]
      ring
    congr 3
    · funext j; congr 1
      rw [Nat.mul_add]; omega
    · funext j; congr 1
      rw [Nat.mul_add, Nat.mul_add g (2 * (m % 4))]; omega

/-- `cbd` never reads outside of the coin buffer, and computes the centred binomial sample. -/
theorem cbd_ok (P : PSet) (s : List (BitVec 16)) (buf : List Byte) (off : Nat) (hs : s.length = 256)
    (hb : off + P.POLYCOINBYTES ≤ buf.length) :
    cbd P s buf off = .ok (ofP (centredBinomial P.MU (buf.drop off))) := by
  cases P with
  | light =>
    have hb' : off + 320 ≤ buf.length := hb
    let T : Nat → BitVec 64 := fun i => (load_littleendian buf (off + 5 * i) 5).toOption.getD 0
    have hT : ∀ i, i < 64 → load_littleendian buf (off + 5 * i) 5 = .ok (T i) ∧
        ∀ k, k < 64 → (T i).getLsbD k = (decide (k < 8 * 5) && bitAt buf (8 * (off + 5 * i) + k)) := by
      intro i hi
      obtain ⟨r, h1, h2⟩ := load_littleendian_ok buf (off + 5 * i) 5 (by omega) (by omega)
      have : T i = r := by simp [T, h1, Except.toOption]
      rw [this]; exact ⟨h1, h2⟩
    simp only [cbd, show N / 4 = 64 from rfl]
    rw [loop_blocks 4 (fun i => cbdBlk10 (T i)) (fun _ => rfl) 64 s 0 (by omega),
      centredBinomial_blocks 5 buf off (fun i => cbdBlk10 (T i)) (fun _ => rfl), writeAt_full _ _ (by simp [hs])]
    · rfl
    · intro i hi
      rw [cbdBlk10_eq]
      apply List.map_congr_left
      intro r hr
      have := List.mem_range.mp hr
      rw [hwg_load _ _ 5 (by omega) _ (hT i hi).2 _ (by omega), hwg_load _ _ 5 (by omega) _ (hT i hi).2 _ (by omega)]
    · intro j a' hj _
      rw [(hT j hj).1, ok_bind, Nat.zero_add]
  | saber =>
    have hb' : off + 256 ≤ buf.length := hb
    let T : Nat → BitVec 64 := fun i => (load_littleendian buf (off + 4 * i) 4).toOption.getD 0
    have hT : ∀ i, i < 64 → load_littleendian buf (off + 4 * i) 4 = .ok (T i) ∧
        ∀ k, k < 64 → (T i).getLsbD k = (decide (k < 8 * 4) && bitAt buf (8 * (off + 4 * i) + k)) := by
      intro i hi
      obtain ⟨r, h1, h2⟩ := load_littleendian_ok buf (off + 4 * i) 4 (by omega) (by omega)
      have : T i = r := by simp [T, h1, Except.toOption]
      rw [this]; exact ⟨h1, h2⟩
    simp only [cbd, show N / 4 = 64 from rfl]
    rw [loop_blocks 4 (fun i => cbdBlk8 ((T i).setWidth 32)) (fun _ => rfl) 64 s 0 (by omega),
      centredBinomial_blocks 4 buf off (fun i => cbdBlk8 ((T i).setWidth 32)) (fun _ => rfl), writeAt_full _ _ (by simp [hs])]
    · rfl
    · intro i hi
      have ht : ((T i).setWidth 32).toNat = (T i).toNat := by
        rw [BitVec.toNat_setWidth, Nat.mod_eq_of_lt]
        apply Nat.lt_pow_two_of_testBit
        intro k hk
        by_cases h64 : k < 64
        · rw [BitVec.testBit_toNat, (hT i hi).2 k h64]; simp; omega
        · rw [BitVec.testBit_toNat]; exact BitVec.getLsbD_of_ge _ _ (by omega)
      rw [cbdBlk8_eq, ht]
      apply List.map_congr_left
      intro r hr
      have := List.mem_range.mp hr
      rw [hwg_load _ _ 4 (by omega) _ (hT i hi).2 _ (by omega), hwg_load _ _ 4 (by omega) _ (hT i hi).2 _ (by omega)]
    · intro j a' hj _
      rw [(hT j hj).1, ok_bind, Nat.zero_add]
  | fire =>
    have hb' : off + 192 ≤ buf.length := hb
    let T : Nat → BitVec 64 := fun i => (load_littleendian buf (off + 3 * i) 3).toOption.getD 0
    have hT : ∀ i, i < 64 → load_littleendian buf (off + 3 * i) 3 = .ok (T i) ∧
        ∀ k, k < 64 → (T i).getLsbD k = (decide (k < 8 * 3) && bitAt buf (8 * (off + 3 * i) + k)) := by
      intro i hi
      obtain ⟨r, h1, h2⟩ := load_littleendian_ok buf (off + 3 * i) 3 (by omega) (by omega)
      have : T i = r := by simp [T, h1, Except.toOption]
      rw [this]; exact ⟨h1, h2⟩
    simp only [cbd, show N / 4 = 64 from rfl]
    rw [loop_blocks 4 (fun i => cbdBlk6 ((T i).setWidth 32)) (fun _ => rfl) 64 s 0 (by omega),
      centredBinomial_blocks 3 buf off (fun i => cbdBlk6 ((T i).setWidth 32)) (fun _ => rfl), writeAt_full _ _ (by simp [hs])]
    · rfl
    · intro i hi
      have ht : ((T i).setWidth 32).toNat = (T i).toNat := by
        rw [BitVec.toNat_setWidth, Nat.mod_eq_of_lt]
        apply Nat.lt_pow_two_of_testBit
        intro k hk
        by_cases h64 : k < 64
        · rw [BitVec.testBit_toNat, (hT i hi).2 k h64]; simp; omega
        · rw [BitVec.testBit_toNat]; exact BitVec.getLsbD_of_ge _ _ (by omega)
      rw [cbdBlk6_eq, ht]
      apply List.map_congr_left
      intro r hr
      have := List.mem_range.mp hr
      rw [hwg_load _ _ 3 (by omega) _ (hT i hi).2 _ (by omega), hwg_load _ _ 3 (by omega) _ (hT i hi).2 _ (by omega)]
    · intro j a' hj _
      rw [(hT j hj).1, ok_bind, Nat.zero_add]

/-- Every sampled coefficient lies in `[-mu/2, mu/2]`. -/
theorem centredBinomial_range (mu : Nat) (bs : List Byte) (i : Fin 256) :
    -((mu / 2 : Nat) : Int) ≤ centredBinomial mu bs i ∧ centredBinomial mu bs i ≤ ((mu / 2 : Nat) : Int) := by
  unfold centredBinomial
  have h1 := hammingWeight_le (mu / 2) fun j => bitAt bs (mu * i.val + j)
  have h2 := hammingWeight_le (mu / 2) fun j => bitAt bs (mu * i.val + mu / 2 + j)
  omega

end Saber
