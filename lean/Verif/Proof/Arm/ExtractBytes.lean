import Verif.Proof.Arm.XorMain
import Verif.Proof.Bits
/-!
# `KeccakF1600_StateExtractBytes`: the parts
-/
namespace Saber.Thumb
open Arm (Reg)
open Arm.Reg
open Op
open Spec (natOfBits)

/-- Byte `q` of the state as a string of bits. -/
def sbyte (w : Nat → W) (q : Nat) : Byte := BitVec.ofNat 8 (natOfBits 8 fun j => sbit w (8 * q + j))

theorem getLsbD_sbyte (w : Nat → W) (q j : Nat) (hj : j < 8) : (sbyte w q).getLsbD j = sbit w (8 * q + j) := by
  unfold sbyte
  rw [BitVec.getLsbD_ofNat, natOfBits_testBit, decide_eq_true hj, Bool.true_and, Bool.true_and]

theorem getLsbD_byteOf (v : W) (i j : Nat) (hj : j < 8) : (byteOf v i).getLsbD j = v.getLsbD (8 * i + j) := by
  unfold byteOf
  rw [BitVec.getLsbD_extractLsb', decide_eq_true hj, Bool.true_and]

theorem byteOf_low (w : Nat → W) (l i : Nat) (hi : i < 4) : byteOf (unLow (w (2 * l)) (w (2 * l + 1))) i = sbyte w (8 * l + i) := by
  apply BitVec.eq_of_getLsbD_eq
  intro j hj
  rw [getLsbD_byteOf _ _ _ hj, getLsbD_sbyte _ _ _ hj, unLow_bits _ _ _ (by omega)]
  unfold sbit
  rw [show (8 * (8 * l + i) + j) / 64 = l by omega, show (8 * (8 * l + i) + j) % 64 / 2 = (8 * i + j) / 2 by omega]
  split
  · rw [show (8 * (8 * l + i) + j) % 2 = 0 by omega]; rfl
  · rw [show (8 * (8 * l + i) + j) % 2 = 1 by omega]

theorem byteOf_high (w : Nat → W) (l i : Nat) (hi : i < 4) : byteOf (unHigh (w (2 * l)) (w (2 * l + 1))) i = sbyte w (8 * l + 4 + i) := by
  apply BitVec.eq_of_getLsbD_eq
  intro j hj
  rw [getLsbD_byteOf _ _ _ hj, getLsbD_sbyte _ _ _ hj, unHigh_bits _ _ _ (by omega)]
  unfold sbit
  rw [show (8 * (8 * l + 4 + i) + j) / 64 = l by omega, show (8 * (8 * l + 4 + i) + j) % 64 / 2 = 16 + (8 * i + j) / 2 by omega]
  split
  · rw [show (8 * (8 * l + 4 + i) + j) % 2 = 0 by omega]; rfl
  · rw [show (8 * (8 * l + 4 + i) + j) % 2 = 1 by omega]

/-- The bytes of a word in memory. -/
theorem ld32_bytes {m : Mem} {a : Nat} {v : W} (h : ld32 m a = some v) (i : Nat) (hi : i < 4) : m (a + i) = some (byteOf v i) := by
  obtain ⟨-, b0, b1, b2, b3, h0, h1, h2, h3, rfl⟩ := ld32_some h
  match i, hi with
  | 0, _ =>
    rw [Nat.add_zero, h0]; refine congrArg some (BitVec.eq_of_getLsbD_eq fun j hj => ?_)
    rw [getLsbD_byteOf _ _ _ hj, getLsbD_cat, if_pos (by omega), Nat.mul_zero, Nat.zero_add]
  | 1, _ =>
    rw [h1]; refine congrArg some (BitVec.eq_of_getLsbD_eq fun j hj => ?_)
    rw [getLsbD_byteOf _ _ _ hj, getLsbD_cat, if_neg (by omega), if_pos (by omega), show 8 * 1 + j - 8 = j by omega]
  | 2, _ =>
    rw [h2]; refine congrArg some (BitVec.eq_of_getLsbD_eq fun j hj => ?_)
    rw [getLsbD_byteOf _ _ _ hj, getLsbD_cat, if_neg (by omega), if_neg (by omega), if_pos (by omega), show 8 * 2 + j - 16 = j by omega]
  | 3, _ =>
    rw [h3]; refine congrArg some (BitVec.eq_of_getLsbD_eq fun j hj => ?_)
    rw [getLsbD_byteOf _ _ _ hj, getLsbD_cat, if_neg (by omega), if_neg (by omega), if_neg (by omega), show 8 * 3 + j - 24 = j by omega]

theorem setWidth_shift (y : W) (i : Nat) : (y >>> (8 * i)).setWidth 8 = byteOf y i := by
  apply BitVec.eq_of_getLsbD_eq
  intro j hj
  rw [getLsbD_byteOf _ _ _ hj, BitVec.getLsbD_setWidth, BitVec.getLsbD_ushiftRight, decide_eq_true hj, Bool.true_and]

/-- The addresses of the output. -/
def outR (d n x : Nat) : Prop := d ≤ x ∧ x < d + n

/-- What the two ways of storing eight bytes do, for addresses with `C`. -/
def Stores (T : Tabs) (l : List Op) (C : Nat → Prop) : Prop :=
  ∀ (s : St) (d n : Nat), C d → d + 8 ≤ 2 ^ 32 → 1 ≤ n → n < 2 ^ 32 → s.r r1 = BitVec.ofNat 32 d → s.r r2 = BitVec.ofNat 32 n →
    (∀ x, outR d 8 x → (s.m x).isSome) →
    Does T l s fun s' => s'.r r1 = BitVec.ofNat 32 (d + 8) ∧ s'.r r2 = BitVec.ofNat 32 (n - 1) ∧ s'.z = decide (n - 1 = 0) ∧
      (∀ x, x ∉ [r1, r2, r6, r7] → s'.r x = s.r x) ∧ Fr (outR d 8) s.m s'.m ∧
      (∀ i, i < 4 → s'.m (d + i) = some (byteOf (s.r r6) i)) ∧ ∀ i, i < 4 → s'.m (d + 4 + i) = some (byteOf (s.r r7) i)

theorem store_aligned (T : Tabs) : Stores T [stm r1 [r6, r7], subs r2 r2 1] (fun d => d % 4 = 0) := by
  intro s d n h4 hd hn hn' h1 h2 hacc
  obtain ⟨m', em, fm, lm⟩ := stRegs_ok s.r [r6, r7] d s.m h4 (by simp only [List.length_cons, List.length_nil]; omega)
    (fun x h1 h2 => hacc x ⟨h1, by simp only [List.length_cons, List.length_nil] at h2; omega⟩)
  refine Does.cons (s' := { s with m := m', r := upd s.r r1 (s.r r1 + BitVec.ofNat 32 8) }) ?_ (Does.cons rfl (Does.nil ⟨?_, ?_, ?_, ?_, ?_, ?_, ?_⟩))
  · unfold exec1; dsimp only
    rw [h1, em]; rfl
  · simp only [St.res]; rw [upd_ne _ _ (by decide), upd_same, h1, ofNat_add']
  · simp only [St.res]; rw [upd_same, upd_ne _ _ (by decide), h2, ofNat_sub _ _ hn hn']
  · simp only [St.res]; rw [upd_ne _ _ (by decide), h2, ofNat_sub _ _ hn hn', ofNat_beq_zero _ (by omega)]
  · intro x hx
    simp only [List.mem_cons, List.not_mem_nil, or_false, not_or] at hx
    simp only [St.res]; rw [upd_ne _ _ hx.2.1, upd_ne _ _ hx.1]
  · exact fm.mono fun x hx => ⟨hx.1, by simp only [List.length_cons, List.length_nil] at hx; omega⟩
  · intro i hi
    exact ld32_bytes (lm 0 (by simp)) i hi
  · intro i hi
    exact ld32_bytes (lm 1 (by simp)) i hi

theorem strb_ok {T : Tabs} {s : St} {x n : Reg} {o d : Nat} (h1 : s.r n = BitVec.ofNat 32 d) (hb : d + o < 2 ^ 32) (hacc : (s.m (d + o)).isSome) :
    ∃ m', exec1 T (strb x n o) s = some { s with m := m' } ∧ m' (d + o) = some ((s.r x).setWidth 8) ∧ Fr (fun y => y = d + o) s.m m' := by
  obtain ⟨m', em, ev, fm⟩ := st8_ok ((s.r x).setWidth 8) hacc
  refine ⟨m', ?_, ev, fm⟩
  unfold exec1; dsimp only
  rw [h1, ofNat_add', toNat_ofNat' _ hb, em]

/-- Storing a word byte by byte, at the offset `o`. -/
theorem storeBytes {T : Tabs} {s : St} {x : Reg} {o d : Nat} {l : List Op} {Q : St → Prop} (hx : x ≠ r1) (h1 : s.r r1 = BitVec.ofNat 32 d) (hd : d + o + 4 ≤ 2 ^ 32)
    (hacc : ∀ i, i < 4 → (s.m (d + o + i)).isSome)
    (h : ∀ s', (∀ y, y ≠ x → s'.r y = s.r y) → Fr (fun y => d + o ≤ y ∧ y < d + o + 4) s.m s'.m → (∀ i, i < 4 → s'.m (d + o + i) = some (byteOf (s.r x) i)) → Does T l s' Q) :
    Does T (strb x r1 o :: lsrs x x 8 :: strb x r1 (o + 1) :: lsrs x x 8 :: strb x r1 (o + 2) :: lsrs x x 8 :: strb x r1 (o + 3) :: l) s Q := by
  obtain ⟨m1, e1, v1, f1⟩ := strb_ok (T := T) (s := s) (x := x) (n := r1) (o := o) h1 (by omega) (hacc 0 (by omega))
  refine Does.cons e1 (Does.cons rfl ?_)
  generalize hs1 : (St.res _ _ _ : St) = s1
  have x1 : s1.r x = s.r x >>> 8 := by rw [← hs1]; simp only [St.res]; rw [upd_same]
  have y1 : ∀ y, y ≠ x → s1.r y = s.r y := fun y hy => by rw [← hs1]; simp only [St.res]; rw [upd_ne _ _ hy]
  have z1 : s1.m = m1 := by rw [← hs1]; rfl
  clear hs1 e1
  obtain ⟨m2, e2, v2, f2⟩ := strb_ok (T := T) (s := s1) (x := x) (n := r1) (o := o + 1) ((y1 _ (Ne.symm hx)).trans h1) (by omega)
    (by rw [z1, f1.acc]; exact hacc 1 (by omega))
  refine Does.cons e2 (Does.cons rfl ?_)
  generalize hs2 : (St.res _ _ _ : St) = s2
  have x2 : s2.r x = s.r x >>> 16 := by rw [← hs2]; simp only [St.res]; rw [upd_same, x1, ← BitVec.shiftRight_add]
  have y2 : ∀ y, y ≠ x → s2.r y = s.r y := fun y hy => by rw [← hs2]; simp only [St.res]; rw [upd_ne _ _ hy, y1 y hy]
  have z2 : s2.m = m2 := by rw [← hs2]; rfl
  clear hs2 e2
  obtain ⟨m3, e3, v3, f3⟩ := strb_ok (T := T) (s := s2) (x := x) (n := r1) (o := o + 2) ((y2 _ (Ne.symm hx)).trans h1) (by omega)
    (by rw [z2, f2.acc, z1, f1.acc]; exact hacc 2 (by omega))
  refine Does.cons e3 (Does.cons rfl ?_)
  generalize hs3 : (St.res _ _ _ : St) = s3
  have x3 : s3.r x = s.r x >>> 24 := by rw [← hs3]; simp only [St.res]; rw [upd_same, x2, ← BitVec.shiftRight_add]
  have y3 : ∀ y, y ≠ x → s3.r y = s.r y := fun y hy => by rw [← hs3]; simp only [St.res]; rw [upd_ne _ _ hy, y2 y hy]
  have z3 : s3.m = m3 := by rw [← hs3]; rfl
  clear hs3 e3
  obtain ⟨m4, e4, v4, f4⟩ := strb_ok (T := T) (s := s3) (x := x) (n := r1) (o := o + 3) ((y3 _ (Ne.symm hx)).trans h1) (by omega)
    (by rw [z3, f3.acc, z2, f2.acc, z1, f1.acc]; exact hacc 3 (by omega))
  refine Does.cons e4 (h _ y3 ?_ ?_)
  · dsimp only
    rw [z1] at f2; rw [z2] at f3; rw [z3] at f4
    exact ((f1.trans f2 (S'' := fun y => d + o ≤ y ∧ y < d + o + 4) (fun _ _ => by omega) (fun _ _ => by omega)).trans f3 (fun _ h => h) (fun _ _ => by omega)).trans f4
      (fun _ h => h) (fun _ _ => by omega)
  · intro i hi
    dsimp only
    rw [z1] at f2; rw [z2] at f3; rw [z3] at f4
    rw [x1] at v2; rw [x2] at v3; rw [x3] at v4
    match i, hi with
    | 0, _ => rw [f4.keep _ (by omega), f3.keep _ (by omega), f2.keep _ (by omega), Nat.add_zero, v1, ← setWidth_shift]; rfl
    | 1, _ => rw [f4.keep _ (by omega), f3.keep _ (by omega), Nat.add_assoc, v2, ← setWidth_shift]
    | 2, _ => rw [f4.keep _ (by omega), Nat.add_assoc, v3, ← setWidth_shift]
    | 3, _ => rw [Nat.add_assoc, v4, ← setWidth_shift]

theorem store_unaligned (T : Tabs) : Stores T storeUnaligned (fun _ => True) := by
  intro s d n _ hd hn hn' h1 h2 hacc
  unfold storeUnaligned
  refine storeBytes (o := 0) (by decide) h1 (by omega) (fun i hi => hacc _ ⟨by omega, by omega⟩) fun s1 a1 f1 v1 => ?_
  refine storeBytes (o := 4) (d := d) (by decide) ((a1 _ (by decide)).trans h1) (by omega) (fun i hi => by rw [f1.acc]; exact hacc _ ⟨by omega, by omega⟩) fun s2 a2 f2 v2 => ?_
  refine Does.cons rfl (Does.cons rfl (Does.nil ⟨?_, ?_, ?_, ?_, ?_, ?_, ?_⟩))
  · simp only [St.res]; rw [upd_ne _ _ (by decide), upd_same, a2 _ (by decide), a1 _ (by decide), h1, ofNat_add']
  · simp only [St.res]; rw [upd_same, upd_ne _ _ (by decide), a2 _ (by decide), a1 _ (by decide), h2, ofNat_sub _ _ hn hn']
  · simp only [St.res]; rw [upd_ne _ _ (by decide), a2 _ (by decide), a1 _ (by decide), h2, ofNat_sub _ _ hn hn', ofNat_beq_zero _ (by omega)]
  · intro x hx
    simp only [List.mem_cons, List.not_mem_nil, or_false, not_or] at hx
    simp only [St.res]; rw [upd_ne _ _ hx.2.1, upd_ne _ _ hx.1, a2 x hx.2.2.2, a1 x hx.2.2.1]
  · exact f1.trans f2 (fun _ _ => ⟨by omega, by omega⟩) (fun _ _ => ⟨by omega, by omega⟩)
  · intro i hi
    simp only [St.res]
    rw [f2.keep _ (by omega)]; exact v1 i hi
  · intro i hi
    simp only [St.res]
    rw [v2 i hi, a1 _ (by decide)]

/-- Loading a lane of the state. -/
theorem ldm_ok {T : Tabs} {s : St} {A l : Nat} {w : Nat → W} (x y : Reg) (hn : [r0, x, y].Nodup) (hA : A + 200 ≤ 2 ^ 32) (hl : l < 25)
    (h0 : s.r r0 = BitVec.ofNat 32 (A + 8 * l)) (hw : Words s.m A w) :
    ∃ s', exec1 T (ldm r0 [x, y]) s = some s' ∧ s'.r r0 = BitVec.ofNat 32 (A + 8 * (l + 1)) ∧ s'.r x = w (2 * l) ∧ s'.r y = w (2 * l + 1) ∧
      (∀ z, z ∉ [r0, x, y] → s'.r z = s.r z) ∧ s'.m = s.m := by
  simp only [List.nodup_cons, List.mem_cons, not_or, List.not_mem_nil, not_false_eq_true, List.nodup_nil, and_true] at hn
  obtain ⟨⟨n1, n2⟩, n3⟩ := hn
  obtain ⟨r', e, p, q⟩ := ldRegs_ok s.m [x, y] (A + 8 * l) s.r (fun i => w (2 * l + i)) (by simp [n3]) (by simp only [List.length_cons, List.length_nil]; omega) (by
    intro i hi
    have hi' : i < 2 := hi
    rw [show A + 8 * l + 4 * i = A + 4 * (2 * l + i) by omega]; exact hw _ (by omega))
  refine ⟨{ s with r := upd r' r0 (BitVec.ofNat 32 (A + 8 * (l + 1))) }, ?_, by simp only [upd_same], ?_, ?_, ?_, rfl⟩
  · unfold exec1; dsimp only
    rw [h0, e]; dsimp only
    rw [ofNat_add']; rfl
  · dsimp only; rw [upd_ne _ _ (Ne.symm n1)]; exact p 0 (by simp)
  · dsimp only; rw [upd_ne _ _ (Ne.symm n2)]; exact p 1 (by simp)
  · intro z hz
    simp only [List.mem_cons, List.not_mem_nil, or_false, not_or] at hz
    dsimp only; rw [upd_ne _ _ hz.1, q z (by simp [hz])]

/-- One pass through the loops. -/
theorem extractBody {P : Prog Lab} {st : List Op} {k : List I} {C : Nat → Prop} {Q : Conf Lab → Prop} (hst : Stores P.tabs st C) {A : Nat} (hA : A + 200 ≤ 2 ^ 32)
    {s : St} {l d n : Nat} {w : Nat → W} (hl : l < 25) (hC : C d) (hd : d + 8 ≤ 2 ^ 32) (h0 : s.r r0 = BitVec.ofNat 32 (A + 8 * l))
    (h1 : s.r r1 = BitVec.ofNat 32 d) (h2 : s.r r2 = BitVec.ofNat 32 n) (hn : 1 ≤ n) (hn' : n < 2 ^ 32) (ht : Table s.m (s.r r3) fromConstants)
    (hacc : ∀ x, outR d 8 x → (s.m x).isSome) (hw : Words s.m A w)
    (h : ∀ s', s'.r r0 = BitVec.ofNat 32 (A + 8 * (l + 1)) → s'.r r1 = BitVec.ofNat 32 (d + 8) → s'.r r2 = BitVec.ofNat 32 (n - 1) → s'.z = decide (n - 1 = 0) →
      (∀ x, x ∉ [r0, r1, r2, r4, r5, r6, r7] → s'.r x = s.r x) → Fr (outR d 8) s.m s'.m → (∀ i, i < 8 → s'.m (d + i) = some (sbyte w (8 * l + i))) → To P (.run k s') Q) :
    To P (.run (ops [ldm r0 [r6, r7]] ++ (ops (fromBitInterleaving r6 r7 r5 r4 r3) ++ (ops st ++ k))) s) Q := by
  obtain ⟨s1, e1, a0, a6, a7, a, am⟩ := ldm_ok (T := P.tabs) r6 r7 (by decide) hA hl h0 hw
  refine To.ops (Does.cons e1 (Does.nil ?_))
  refine To.ops ((fromBitInterleaving_ok P.tabs r6 r7 r5 r4 r3 s1 (by decide) (by rw [am, a _ (by decide)]; exact ht)).mono ?_)
  rintro s2 ⟨b6, b7, b, bm⟩
  rw [a6, a7] at b6 b7
  refine To.ops ((hst s2 d n hC hd hn hn' ?_ ?_ ?_).mono ?_)
  · rw [b _ (by decide) (by decide) (by decide) (by decide), a _ (by decide), h1]
  · rw [b _ (by decide) (by decide) (by decide) (by decide), a _ (by decide), h2]
  · rw [bm, am]; exact hacc
  rintro s3 ⟨c1, c2, cz, c, cm, cl, ch⟩
  rw [bm, am] at cm
  refine h s3 ?_ c1 c2 cz ?_ cm ?_
  · rw [c _ (by decide), b _ (by decide) (by decide) (by decide) (by decide), a0]
  · intro x hx
    simp only [List.mem_cons, List.not_mem_nil, or_false, not_or] at hx
    rw [c x (by simp [hx]), b x (by simp [hx]) (by simp [hx]) (by simp [hx]) (by simp [hx]), a x (by simp [hx])]
  · intro i hi
    by_cases h4 : i < 4
    · rw [cl i h4, b6, byteOf_low _ _ _ h4]
    · have := ch (i - 4) (by omega)
      rw [show d + 4 + (i - 4) = d + i by omega] at this
      rw [this, b7, byteOf_high _ _ _ (by omega), show 8 * l + 4 + (i - 4) = 8 * l + i by omega]

/-- The two loops of `__KeccakF1600_StateExtractLanes`. -/
theorem extractLoop {P : Prog Lab} (hP : P.code = code) {lab : Lab} {st : List Op} {rest : List I} {C : Nat → Prop} (hC : ∀ d, C d → C (d + 8))
    (hcode : code lab = ops [ldm r0 [r6, r7]] ++ (ops (fromBitInterleaving r6 r7 r5 r4 r3) ++ (ops st ++ (.bne lab :: .bx lr :: rest))))
    (hst : Stores P.tabs st C) {A : Nat} (hA : A + 200 ≤ 2 ^ 32) {T : W} (hT : T.toNat + 4 * fromConstants.length ≤ 2 ^ 32) {w : Nat → W} :
    ∀ (n : Nat) (s : St) (l d : Nat), l + (n + 1) ≤ 25 → C d → d + 8 * (n + 1) ≤ 2 ^ 32 →
      s.r r0 = BitVec.ofNat 32 (A + 8 * l) → s.r r1 = BitVec.ofNat 32 d → s.r r2 = BitVec.ofNat 32 (n + 1) → s.r r3 = T → Table s.m T fromConstants →
      (∀ x, T.toNat ≤ x → x < T.toNat + 4 * fromConstants.length → ¬ outR d (8 * (n + 1)) x) →
      (∀ x, outR d (8 * (n + 1)) x → (s.m x).isSome) → (∀ x, outR d (8 * (n + 1)) x → ¬ stateR A x) → Words s.m A w →
      To P (.run (code lab) s) fun c => ∃ s', c = P.jump (s.r lr) s' ∧ s'.r r0 = BitVec.ofNat 32 (A + 8 * (l + (n + 1))) ∧
        s'.r r1 = BitVec.ofNat 32 (d + 8 * (n + 1)) ∧ (∀ x, x ∉ [r0, r1, r2, r4, r5, r6, r7] → s'.r x = s.r x) ∧ Fr (outR d (8 * (n + 1))) s.m s'.m ∧
        ∀ i, i < 8 * (n + 1) → s'.m (d + i) = some (sbyte w (8 * l + i)) := by
  intro n
  induction n with
  | zero =>
    intro s l d hl hd hd' h0 h1 h2 h3 ht hTd hacc hdis hw
    rw [hcode]
    refine extractBody hst hA (by omega) hd (by omega) h0 h1 h2 (by omega) (by omega) (by rw [h3]; exact ht) hacc hw ?_
    intro s' a0 a1 a2 az a am av
    refine To.step (c' := .run (.bx lr :: rest) s') ?_ (To.step (c' := P.jump (s'.r lr) s') rfl (To.here ⟨s', ?_, a0, a1, a, am, av⟩))
    · show some (Conf.run (if s'.z then _ else _) s') = _
      rw [az, if_pos (by decide)]
    · rw [a _ (by decide)]
  | succ n ih =>
    intro s l d hl hd hd' h0 h1 h2 h3 ht hTd hacc hdis hw
    rw [hcode]
    have sub : ∀ x, outR d 8 x → outR d (8 * (n + 1 + 1)) x := fun x hx => ⟨hx.1, by have := hx.2; omega⟩
    have sub' : ∀ x, outR (d + 8) (8 * (n + 1)) x → outR d (8 * (n + 1 + 1)) x := fun x hx => ⟨by have := hx.1; omega, by have := hx.2; omega⟩
    refine extractBody hst hA (by omega) hd (by omega) h0 h1 h2 (by omega) (by omega) (by rw [h3]; exact ht) (fun x hx => hacc x (sub x hx)) hw ?_
    intro s' a0 a1 a2 az a am av
    refine To.step (c' := .run (code lab) s') ?_ ((ih s' (l + 1) (d + 8) (by omega) (hC d hd) (by omega) a0 a1 ?_ ?_ ?_ ?_ ?_ ?_ ?_).bind ?_)
    · show some (Conf.run (if s'.z then _ else P.code lab) s') = _
      rw [az, decide_eq_false (by omega), hP]; rfl
    · rw [a2]; rfl
    · rw [a _ (by decide), h3]
    · exact ht.fr am hT fun x h1 h2 h3 => hTd x h1 h2 (sub x h3)
    · exact fun x h1 h2 h3 => hTd x h1 h2 (sub' x h3)
    · intro x hx
      rw [am.acc]; exact hacc x (sub' x hx)
    · exact fun x hx => hdis x (sub' x hx)
    · exact hw.fr am fun x hx hx' => hdis x (sub x hx') hx
    · rintro c ⟨s2, rfl, e0, e1, e, em, ev⟩
      refine To.here ⟨s2, by rw [a _ (by decide)], ?_, ?_, ?_, am.trans em sub sub', ?_⟩
      · rw [e0]; congr 1; omega
      · rw [e1]; congr 1; omega
      · intro x hx; rw [e x hx, a x hx]
      · intro i hi
        by_cases h8 : i < 8
        · rw [em.keep _ fun hx => by have := hx.1; omega]; exact av i h8
        · have := ev (i - 8) (by omega)
          rwa [show d + 8 + (i - 8) = d + i by omega, show 8 * (l + 1) + (i - 8) = 8 * l + i by omega] at this

end Saber.Thumb
