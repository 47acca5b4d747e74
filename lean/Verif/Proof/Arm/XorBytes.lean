import Verif.Proof.Arm.Thumb
/-!
# `KeccakF1600_StateXORBytes`: the parts
-/
namespace Saber.Thumb
open Arm (Reg)
open Arm.Reg
open Op

/-- The words of a lane from eight bytes. -/
def lo (b : Nat → Byte) : W := cat (b 0) (b 1) (b 2) (b 3)
@[inherit_doc lo] def hi (b : Nat → Byte) : W := cat (b 4) (b 5) (b 6) (b 7)

/-- Bit `p` of a string of bytes. -/
def dbit (b : Nat → Byte) (p : Nat) : Bool := (b (p / 8)).getLsbD (p % 8)

/-- Bit `p` of a state of interleaved words. -/
def sbit (w : Nat → W) (p : Nat) : Bool := (w (2 * (p / 64) + p % 2)).getLsbD (p % 64 / 2)

/-- Bit `q` of a lane of two words. -/
def lbit (x0 x1 : W) (q : Nat) : Bool := if q < 32 then x0.getLsbD q else x1.getLsbD (q - 32)

theorem getLsbD_cat' (b : Nat → Byte) (j i : Nat) (hi : i < 32) :
    (cat (b j) (b (j + 1)) (b (j + 2)) (b (j + 3))).getLsbD i = (b (j + i / 8)).getLsbD (i % 8) := by
  rw [getLsbD_cat]
  split
  · rw [show i / 8 = 0 by omega, Nat.add_zero, show i % 8 = i by omega]
  split
  · rw [show i / 8 = 1 by omega, show i % 8 = i - 8 by omega]
  split
  · rw [show i / 8 = 2 by omega, show i % 8 = i - 16 by omega]
  · rw [show i / 8 = 3 by omega, show i % 8 = i - 24 by omega]

theorem lbit_bytes (b : Nat → Byte) (q : Nat) (hq : q < 64) : lbit (lo b) (hi b) q = dbit b q := by
  unfold lbit dbit
  split
  · next h => have := getLsbD_cat' b 0 q h; rw [Nat.zero_add (q / 8)] at this; exact this
  · next h =>
    have := getLsbD_cat' b 4 (q - 32) (by omega)
    rw [show 4 + (q - 32) / 8 = q / 8 by omega, show (q - 32) % 8 = q % 8 by omega] at this
    exact this

/-- The state after adding the words of a lane. -/
def xorLane (w : Nat → W) (l : Nat) (x0 x1 : W) : Nat → W := fun i =>
  if i = 2 * l then evens x0 x1 ^^^ w i else if i = 2 * l + 1 then odds x0 x1 ^^^ w i else w i

theorem sbit_xorLane (w : Nat → W) (l : Nat) (x0 x1 : W) (p : Nat) :
    sbit (xorLane w l x0 x1) p = (sbit w p ^^ (decide (p / 64 = l) && lbit x0 x1 (p % 64))) := by
  unfold sbit xorLane
  by_cases hl : p / 64 = l
  · rw [decide_eq_true hl, Bool.true_and, hl]
    rcases Nat.mod_two_eq_zero_or_one p with h | h
    · rw [h, Nat.add_zero, if_pos rfl, BitVec.getLsbD_xor, Bool.xor_comm]
      congr 1
      rw [evens_bits _ _ _ (by omega)]
      unfold lbit
      split
      · rw [if_pos (by omega), show 2 * (p % 64 / 2) = p % 64 by omega]
      · rw [if_neg (by omega), show 2 * (p % 64 / 2 - 16) = p % 64 - 32 by omega]
    · rw [h, if_neg (by omega), if_pos rfl, BitVec.getLsbD_xor, Bool.xor_comm]
      congr 1
      rw [odds_bits _ _ _ (by omega)]
      unfold lbit
      split
      · rw [if_pos (by omega), show 2 * (p % 64 / 2) + 1 = p % 64 by omega]
      · rw [if_neg (by omega), show 2 * (p % 64 / 2 - 16) + 1 = p % 64 - 32 by omega]
  · rw [if_neg (by omega), if_neg (by omega), decide_eq_false hl, Bool.false_and, Bool.xor_false]

/-- The state: 50 words at the address `A`. -/
def Words (m : Mem) (A : Nat) (w : Nat → W) : Prop := ∀ i, i < 50 → ld32 m (A + 4 * i) = some (w i)

/-- The addresses of the state. -/
def stateR (A x : Nat) : Prop := A ≤ x ∧ x < A + 200

theorem Words.fr {S : Nat → Prop} {m m' : Mem} {A : Nat} {w : Nat → W} (h : Words m A w) (f : Fr S m m') (hs : ∀ x, stateR A x → ¬ S x) : Words m' A w :=
  fun i hi => by rw [f.ld32 fun j hj => hs _ ⟨by omega, by omega⟩]; exact h i hi

theorem Table.fr {S : Nat → Prop} {m m' : Mem} {a : W} {l : List W} (h : Table m a l) (f : Fr S m m') (hb : a.toNat + 4 * l.length ≤ 2 ^ 32)
    (hs : ∀ x, a.toNat ≤ x → x < a.toNat + 4 * l.length → ¬ S x) : Table m' a l := fun i hi => by
  have e : (a + BitVec.ofNat 32 (4 * i)).toNat = a.toNat + 4 * i := by
    rw [BitVec.toNat_add, toNat_ofNat' _ (by omega), Nat.mod_eq_of_lt (by omega)]
  rw [f.ld32 fun j hj => hs _ (by rw [e]; omega) (by rw [e]; omega)]
  exact h i hi

/-- Adding a lane to the state and counting down. -/
theorem xorStore_ok {P : Prog Lab} {k : List I} {Q : Conf Lab → Prop} {s : St} {A l n : Nat} {w : Nat → W} {y0 y1 : W} (hA : A + 200 ≤ 2 ^ 32) (hl : l < 25)
    (h0 : s.r r0 = BitVec.ofNat 32 (A + 8 * l)) (h6 : s.r r6 = y0) (h7 : s.r r7 = y1)
    (h2 : s.r r2 = BitVec.ofNat 32 n) (hn : 1 ≤ n) (hn' : n < 2 ^ 32) (hw : Words s.m A w)
    (h : ∀ s', s'.r r0 = BitVec.ofNat 32 (A + 8 * (l + 1)) → s'.r r2 = BitVec.ofNat 32 (n - 1) → s'.z = decide (n - 1 = 0) →
      (∀ x, x ∉ [r0, r2, r5, r6, r7] → s'.r x = s.r x) → Fr (stateR A) s.m s'.m →
      Words s'.m A (fun i => if i = 2 * l then y0 ^^^ w i else if i = 2 * l + 1 then y1 ^^^ w i else w i) → To P (.run k s') Q) :
    To P (.run (ops xorStore ++ k) s) Q := by
  have w0 := hw (2 * l) (by omega)
  have w1 := hw (2 * l + 1) (by omega)
  rw [show A + 4 * (2 * l) = A + 8 * l by omega] at w0
  rw [show A + 4 * (2 * l + 1) = A + 8 * l + 4 by omega] at w1
  apply To.ops
  unfold xorStore
  refine Does.cons (s' := { s with r := upd s.r r5 (w (2 * l)) }) ?_ ?_
  · unfold exec1; dsimp only
    rw [h0, ofNat_add', Nat.add_zero, toNat_ofNat' _ (by omega), w0]
  refine Does.cons rfl ?_
  generalize hs1 : (St.res _ _ _ : St) = s1
  have e1 : s1.r = upd (upd s.r r5 (w (2 * l))) r6 (y0 ^^^ w (2 * l)) := by
    rw [← hs1]; simp only [St.res, Alu.eval, upd_same]
    rw [upd_ne _ _ (by decide : r6 ≠ r5), h6]
  have m1 : s1.m = s.m := by rw [← hs1]; rfl
  refine Does.cons (s' := { s1 with r := upd s1.r r5 (w (2 * l + 1)) }) ?_ ?_
  · unfold exec1; dsimp only
    rw [e1, upd_ne _ _ (by decide : r0 ≠ r6), upd_ne _ _ (by decide : r0 ≠ r5), h0, ofNat_add', toNat_ofNat' _ (by omega), m1, w1]
  refine Does.cons rfl ?_
  generalize hs2 : (St.res _ _ _ : St) = s2
  have e2 : s2.r = upd (upd s1.r r5 (w (2 * l + 1))) r7 (y1 ^^^ w (2 * l + 1)) := by
    rw [← hs2]; simp only [St.res, Alu.eval, upd_same]
    rw [upd_ne _ _ (by decide : r7 ≠ r5), e1, upd_ne _ _ (by decide : r7 ≠ r6), upd_ne _ _ (by decide : r7 ≠ r5), h7]
  have m2 : s2.m = s.m := by rw [← hs2]; exact m1
  have r0_2 : s2.r r0 = BitVec.ofNat 32 (A + 8 * l) := by
    rw [e2, upd_ne _ _ (by decide), upd_ne _ _ (by decide), e1, upd_ne _ _ (by decide), upd_ne _ _ (by decide), h0]
  have r6_2 : s2.r r6 = y0 ^^^ w (2 * l) := by
    rw [e2, upd_ne _ _ (by decide), upd_ne _ _ (by decide), e1, upd_same]
  have r7_2 : s2.r r7 = y1 ^^^ w (2 * l + 1) := by rw [e2, upd_same]
  obtain ⟨a4, acc0⟩ := ld32_acc w0
  obtain ⟨-, acc1⟩ := ld32_acc w1
  obtain ⟨m', em, fm, lm⟩ := stRegs_ok s2.r [r6, r7] (A + 8 * l) s.m a4 (by simp only [List.length_cons, List.length_nil]; omega) (by
    intro x h1 h2
    simp only [List.length_cons, List.length_nil] at h2
    by_cases hx : x < A + 8 * l + 4
    · have := acc0 (x - (A + 8 * l)) (by omega)
      rwa [show A + 8 * l + (x - (A + 8 * l)) = x by omega] at this
    · have := acc1 (x - (A + 8 * l + 4)) (by omega)
      rwa [show A + 8 * l + 4 + (x - (A + 8 * l + 4)) = x by omega] at this)
  refine Does.cons (s' := { s2 with m := m', r := upd s2.r r0 (s2.r r0 + BitVec.ofNat 32 8) }) ?_ ?_
  · unfold exec1; dsimp only
    rw [m2, r0_2, em]; rfl
  refine Does.cons rfl (Does.nil ?_)
  have hr2 : s2.r r2 = BitVec.ofNat 32 n := by
    rw [e2, upd_ne _ _ (by decide), upd_ne _ _ (by decide), e1, upd_ne _ _ (by decide), upd_ne _ _ (by decide), h2]
  apply h
  · simp only [St.res]
    rw [upd_ne _ _ (by decide), upd_same, r0_2, ofNat_add']; congr 1
  · simp only [St.res]
    rw [upd_same, upd_ne _ _ (by decide), hr2, ofNat_sub _ _ hn hn']
  · simp only [St.res]
    rw [upd_ne _ _ (by decide), hr2, ofNat_sub _ _ hn hn', ofNat_beq_zero _ (by omega)]
  · intro x hx
    simp only [List.mem_cons, List.not_mem_nil, or_false, not_or] at hx
    simp only [St.res]
    rw [upd_ne _ _ hx.2.1, upd_ne _ _ hx.1, e2, upd_ne _ _ hx.2.2.2.2, upd_ne _ _ hx.2.2.1, e1, upd_ne _ _ hx.2.2.2.1, upd_ne _ _ hx.2.2.1]
  · exact fm.mono fun x hx => ⟨by omega, by simp only [List.length_cons, List.length_nil] at hx; omega⟩
  · intro i hi
    simp only [St.res]
    split
    · next hi =>
      have := lm 0 (by simp)
      rw [hi, show A + 4 * (2 * l) = A + 8 * l + 4 * 0 by omega, this]
      exact congrArg some r6_2
    split
    · next hi =>
      have := lm 1 (by simp)
      rw [hi, show A + 4 * (2 * l + 1) = A + 8 * l + 4 * 1 by omega, this]
      exact congrArg some r7_2
    · rw [fm.ld32 fun j hj => by simp only [List.length_cons, List.length_nil]; omega]
      exact hw i hi

/-- What the two ways of loading eight bytes do, for addresses with `C`. -/
def Loads (T : Tabs) (l : List Op) (C : Nat → Prop) : Prop :=
  ∀ (s : St) (d : Nat) (b : Nat → Byte), C d → d + 8 ≤ 2 ^ 32 → s.r r1 = BitVec.ofNat 32 d → (∀ i, i < 8 → s.m (d + i) = some (b i)) →
    Does T l s fun s' => s'.r r6 = lo b ∧ s'.r r7 = hi b ∧ s'.r r1 = BitVec.ofNat 32 (d + 8) ∧ (∀ x, x ∉ [r1, r4, r6, r7] → s'.r x = s.r x) ∧ s'.m = s.m

theorem load_aligned (T : Tabs) : Loads T [ldm r1 [r6, r7]] (fun d => d % 4 = 0) := by
  intro s d b hd hb h1 hm
  obtain ⟨r', e, h2, h3⟩ := ldRegs_ok s.m [r6, r7] d s.r (fun i => if i = 0 then lo b else hi b) (by decide)
    (by simp only [List.length_cons, List.length_nil]; omega) (by
      intro i hi
      match i, hi with
      | 0, _ =>
        exact ld32_of (by omega) (hm 0 (by omega)) (hm 1 (by omega)) (hm 2 (by omega)) (hm 3 (by omega))
      | 1, _ =>
        exact ld32_of (by omega) (hm 4 (by omega)) (hm 5 (by omega)) (hm 6 (by omega)) (hm 7 (by omega)))
  refine Does.cons (s' := { s with r := upd r' r1 (s.r r1 + BitVec.ofNat 32 8) }) ?_ (Does.nil ⟨?_, ?_, ?_, ?_, rfl⟩)
  · unfold exec1; dsimp only
    rw [h1, e]; rfl
  · simp only; rw [upd_ne _ _ (by decide)]; exact h2 0 (by simp)
  · simp only; rw [upd_ne _ _ (by decide)]; exact h2 1 (by simp)
  · simp only; rw [upd_same, h1, ofNat_add']
  · intro x hx
    simp only [List.mem_cons, List.not_mem_nil, or_false, not_or] at hx
    simp only
    rw [upd_ne _ _ hx.1, h3 x (by simp [hx])]

theorem cat_or (b0 b1 b2 b3 : Byte) : ((b0.setWidth 32 ||| (b1.setWidth 32 <<< 8)) ||| (b2.setWidth 32 <<< 16)) ||| (b3.setWidth 32 <<< 24) = cat b0 b1 b2 b3 := by
  apply BitVec.eq_of_getLsbD_eq
  intro i hi
  rw [getLsbD_cat]
  simp only [BitVec.getLsbD_or, BitVec.getLsbD_shiftLeft, BitVec.getLsbD_setWidth]
  by_cases h0 : i < 8
  · simp [h0, hi, (by omega : i < 16), (by omega : i < 24)]
  rw [BitVec.getLsbD_of_ge b0 i (by omega), if_neg h0]
  by_cases h1 : i < 16
  · simp [h0, h1, hi, (by omega : i < 24), (by omega : i - 8 < 32)]
  rw [BitVec.getLsbD_of_ge b1 (i - 8) (by omega), if_neg h1]
  by_cases h2 : i < 24
  · simp [h0, h1, h2, hi, (by omega : i - 16 < 32)]
  rw [BitVec.getLsbD_of_ge b2 (i - 16) (by omega), if_neg h2]
  simp [h2, hi, (by omega : i - 24 < 32)]

theorem ldrb_ok {T : Tabs} {s : St} {x n : Reg} {o d : Nat} {v : Byte} (h1 : s.r n = BitVec.ofNat 32 d) (hb : d + o < 2 ^ 32) (hm : s.m (d + o) = some v) :
    exec1 T (ldrb x n o) s = some { s with r := upd s.r x (v.setWidth 32) } := by
  unfold exec1; dsimp only
  rw [h1, ofNat_add', toNat_ofNat' _ hb, hm]

theorem ldOr_ok {T : Tabs} {s : St} {x : Reg} {o k d : Nat} {v : Byte} {l : List Op} {Q : St → Prop} (h1 : s.r r1 = BitVec.ofNat 32 d) (hb : d + o < 2 ^ 32)
    (hm : s.m (d + o) = some v) (hx : x ≠ r4)
    (h : ∀ s', s'.r x = s.r x ||| (v.setWidth 32 <<< k) → (∀ y, y ≠ r4 → y ≠ x → s'.r y = s.r y) → s'.m = s.m → Does T l s' Q) :
    Does T (ldrb r4 r1 o :: lsls r4 r4 k :: alu .orr x x r4 :: l) s Q := by
  refine Does.cons (ldrb_ok h1 hb hm) (Does.cons rfl (Does.cons rfl (h _ ?_ ?_ rfl)))
  · simp only [St.res, Alu.eval, upd_same, upd_ne _ _ hx]
  · intro y h3 h4
    simp only [St.res, upd_ne _ _ h3, upd_ne _ _ h4]

theorem load_unaligned (T : Tabs) : Loads T loadUnaligned (fun _ => True) := by
  intro s d b _ hb h1 hm
  unfold loadUnaligned
  have n1 : r1 ≠ r4 := by decide
  have n2 : r1 ≠ r6 := by decide
  have n3 : r1 ≠ r7 := by decide
  have n4 : r6 ≠ r4 := by decide
  have n5 : r7 ≠ r4 := by decide
  have n6 : r6 ≠ r7 := by decide
  refine Does.cons (ldrb_ok h1 (by omega) (hm 0 (by omega))) ?_
  generalize hs1 : ({ s with r := _ } : St) = s1
  have a1 : s1.r r6 = (b 0).setWidth 32 := by rw [← hs1]; simp only [upd_same]
  have b1 : ∀ y, y ≠ r6 → s1.r y = s.r y := fun y h => by rw [← hs1]; exact upd_ne _ _ h
  have c1 : s1.m = s.m := by rw [← hs1]
  refine ldOr_ok ((b1 _ n2).trans h1) (by omega) (c1 ▸ hm 1 (by omega)) n4 fun s2 a2 b2 c2 => ?_
  refine ldOr_ok (((b2 _ n1 n2).trans (b1 _ n2)).trans h1) (by omega) (by rw [c2, c1]; exact hm 2 (by omega)) n4 fun s3 a3 b3 c3 => ?_
  refine ldOr_ok ((((b3 _ n1 n2).trans (b2 _ n1 n2)).trans (b1 _ n2)).trans h1) (by omega) (by rw [c3, c2, c1]; exact hm 3 (by omega)) n4 fun s4 a4 b4 c4 => ?_
  have e4 : s4.r r6 = lo b := by rw [a4, a3, a2, a1]; exact cat_or _ _ _ _
  have f4 : ∀ y, y ≠ r4 → y ≠ r6 → s4.r y = s.r y := fun y h h' => by rw [b4 y h h', b3 y h h', b2 y h h', b1 y h']
  have g4 : s4.m = s.m := by rw [c4, c3, c2, c1]
  clear a1 b1 c1 a2 b2 c2 a3 b3 c3 a4 b4 c4 hs1
  refine Does.cons (ldrb_ok ((f4 _ n1 n2).trans h1) (by omega) (by rw [g4]; exact hm 4 (by omega))) ?_
  generalize hs1 : ({ s4 with r := _ } : St) = s5
  have a1 : s5.r r7 = (b 4).setWidth 32 := by rw [← hs1]; simp only [upd_same]
  have b1 : ∀ y, y ≠ r7 → s5.r y = s4.r y := fun y h => by rw [← hs1]; exact upd_ne _ _ h
  have c1 : s5.m = s.m := by rw [← hs1]; exact g4
  refine ldOr_ok (((b1 _ n3).trans (f4 _ n1 n2)).trans h1) (by omega) (c1 ▸ hm 5 (by omega)) n5 fun s6 a2 b2 c2 => ?_
  refine ldOr_ok ((((b2 _ n1 n3).trans (b1 _ n3)).trans (f4 _ n1 n2)).trans h1) (by omega) (by rw [c2, c1]; exact hm 6 (by omega)) n5 fun s7 a3 b3 c3 => ?_
  refine ldOr_ok (((((b3 _ n1 n3).trans (b2 _ n1 n3)).trans (b1 _ n3)).trans (f4 _ n1 n2)).trans h1) (by omega) (by rw [c3, c2, c1]; exact hm 7 (by omega)) n5
    fun s8 a4 b4 c4 => ?_
  have f8 : ∀ y, y ≠ r4 → y ≠ r7 → s8.r y = s4.r y := fun y h h' => by rw [b4 y h h', b3 y h h', b2 y h h', b1 y h']
  refine Does.cons rfl (Does.nil ⟨?_, ?_, ?_, ?_, ?_⟩)
  · simp only [St.res]; rw [upd_ne _ _ (by decide), f8 _ n4 n6, e4]
  · simp only [St.res]; rw [upd_ne _ _ (by decide), a4, a3, a2, a1]; exact cat_or _ _ _ _
  · simp only [St.res]; rw [upd_same, f8 _ n1 n3, f4 _ n1 n2, h1, ofNat_add']
  · intro x hx
    simp only [List.mem_cons, List.not_mem_nil, or_false, not_or] at hx
    simp only [St.res]; rw [upd_ne _ _ hx.1, f8 x hx.2.1 hx.2.2.2, f4 x hx.2.1 hx.2.2.1]
  · simp only [St.res]; rw [c4, c3, c2, c1]

/-- The bits that a chunk of `n` bytes at the offset `o` adds. -/
def xb (b : Nat → Byte) (o n p : Nat) : Bool := decide (8 * o ≤ p ∧ p < 8 * (o + n)) && dbit b (p - 8 * o)

theorem xb_lane (b : Nat → Byte) (l p : Nat) : (decide (p / 64 = l) && dbit b (p % 64)) = xb b (8 * l) 8 p := by
  unfold xb
  by_cases h : p / 64 = l
  · rw [decide_eq_true h, decide_eq_true (by omega), show p - 8 * (8 * l) = p % 64 by omega]
  · rw [decide_eq_false h, decide_eq_false (by omega), Bool.false_and, Bool.false_and]

theorem xb_add (b : Nat → Byte) (o n n' p : Nat) : xb b o (n + n') p = (xb b o n p ^^ xb (fun i => b (n + i)) (o + n) n' p) := by
  unfold xb dbit
  by_cases h1 : 8 * o ≤ p ∧ p < 8 * (o + n)
  · rw [decide_eq_true h1, decide_eq_true (by omega), decide_eq_false (by omega), Bool.false_and, Bool.xor_false]
  · rw [decide_eq_false h1, Bool.false_and, Bool.false_xor]
    by_cases h2 : 8 * o ≤ p ∧ p < 8 * (o + (n + n'))
    · rw [decide_eq_true h2, decide_eq_true (by omega)]
      simp only [show n + (p - 8 * (o + n)) / 8 = (p - 8 * o) / 8 by omega, show (p - 8 * (o + n)) % 8 = (p - 8 * o) % 8 by omega]
    · rw [decide_eq_false h2, decide_eq_false (by omega), Bool.false_and, Bool.false_and]

theorem sbit_xorLane' (w : Nat → W) (l : Nat) (b : Nat → Byte) (p : Nat) : sbit (xorLane w l (lo b) (hi b)) p = (sbit w p ^^ xb b (8 * l) 8 p) := by
  rw [sbit_xorLane, lbit_bytes _ _ (by omega), xb_lane]

/-- One pass through the loops. -/
theorem xorBody {P : Prog Lab} {ld : List Op} {k : List I} {C : Nat → Prop} {Q : Conf Lab → Prop} (hload : Loads P.tabs ld C) {A : Nat} (hA : A + 200 ≤ 2 ^ 32)
    {s : St} {l d n : Nat} {b : Nat → Byte} {w : Nat → W} (hl : l < 25) (hC : C d) (hd : d + 8 ≤ 2 ^ 32) (h0 : s.r r0 = BitVec.ofNat 32 (A + 8 * l))
    (h1 : s.r r1 = BitVec.ofNat 32 d) (h2 : s.r r2 = BitVec.ofNat 32 n) (hn : 1 ≤ n) (hn' : n < 2 ^ 32) (ht : Table s.m (s.r r3) toConstants)
    (hb : ∀ i, i < 8 → s.m (d + i) = some (b i)) (hw : Words s.m A w)
    (h : ∀ s', s'.r r0 = BitVec.ofNat 32 (A + 8 * (l + 1)) → s'.r r1 = BitVec.ofNat 32 (d + 8) → s'.r r2 = BitVec.ofNat 32 (n - 1) → s'.z = decide (n - 1 = 0) →
      (∀ x, x ∉ [r0, r1, r2, r4, r5, r6, r7, r8, r9] → s'.r x = s.r x) → Fr (stateR A) s.m s'.m → Words s'.m A (xorLane w l (lo b) (hi b)) → To P (.run k s') Q) :
    To P (.run (ops ld ++ (ops [mov r8 r6, mov r9 r7] ++ (ops (toBitInterleaving r8 r9 r6 r7 r5 r4 r3) ++ (ops xorStore ++ k)))) s) Q := by
  refine To.ops ((hload s d b hC hd h1 hb).mono ?_)
  rintro s1 ⟨a6, a7, a1, a, am⟩
  refine To.ops (Does.cons rfl (Does.cons rfl (Does.nil ?_)))
  generalize hs2 : ({ s1 with r := _ } : St) = s2
  have c8 : s2.r r8 = lo b := by
    rw [← hs2]; dsimp only; rw [upd_ne _ _ (by decide), upd_same, a6]
  have c9 : s2.r r9 = hi b := by
    rw [← hs2]; dsimp only; rw [upd_same, upd_ne _ _ (by decide), a7]
  have c : ∀ x, x ≠ r8 → x ≠ r9 → s2.r x = s1.r x := fun x h h' => by
    rw [← hs2]; dsimp only; rw [upd_ne _ _ h', upd_ne _ _ h]
  have cm : s2.m = s.m := by rw [← hs2]; exact am
  refine To.ops ((toBitInterleaving_ok P.tabs r8 r9 r6 r7 r5 r4 r3 s2 (by decide) (by
    rw [cm, c _ (by decide) (by decide), a _ (by decide)]; exact ht)).mono ?_)
  rintro s3 ⟨e6, e7, e, em⟩
  rw [c8, c9] at e6 e7
  refine xorStore_ok hA hl ?_ e6 e7 ?_ hn hn' (by rw [em, cm]; exact hw) ?_
  · rw [e _ (by decide) (by decide) (by decide) (by decide), c _ (by decide) (by decide), a _ (by decide), h0]
  · rw [e _ (by decide) (by decide) (by decide) (by decide), c _ (by decide) (by decide), a _ (by decide), h2]
  · intro s4 f0 f2 fz f fm fw
    refine h s4 f0 ?_ f2 fz ?_ (by rw [em, cm] at fm; exact fm) fw
    · rw [f _ (by decide), e _ (by decide) (by decide) (by decide) (by decide), c _ (by decide) (by decide), a1]
    · intro x hx
      simp only [List.mem_cons, List.not_mem_nil, or_false, not_or] at hx
      rw [f x (by simp [hx]), e x hx.2.2.2.2.2.1 hx.2.2.2.2.2.2.1 hx.2.2.2.2.1 hx.2.2.2.1, c x hx.2.2.2.2.2.2.2.1 hx.2.2.2.2.2.2.2.2, a x (by simp [hx])]

/-- The two loops of `__KeccakF1600_StateXORLanes`. -/
theorem xorLoop {P : Prog Lab} (hP : P.code = code) {lab : Lab} {ld : List Op} {rest : List I} {C : Nat → Prop} (hC : ∀ d, C d → C (d + 8))
    (hcode : code lab = ops ld ++ (ops [mov r8 r6, mov r9 r7] ++ (ops (toBitInterleaving r8 r9 r6 r7 r5 r4 r3) ++ (ops xorStore ++
      (.bne lab :: .bx lr :: rest))))) (hload : Loads P.tabs ld C) {A : Nat} (hA : A + 200 ≤ 2 ^ 32) {T : W}
    (hT : T.toNat + 4 * toConstants.length ≤ 2 ^ 32) (hTA : ∀ x, T.toNat ≤ x → x < T.toNat + 4 * toConstants.length → ¬ stateR A x) :
    ∀ (n : Nat) (s : St) (l d : Nat) (b : Nat → Byte) (w : Nat → W), l + (n + 1) ≤ 25 → C d → d + 8 * (n + 1) ≤ 2 ^ 32 →
      s.r r0 = BitVec.ofNat 32 (A + 8 * l) → s.r r1 = BitVec.ofNat 32 d → s.r r2 = BitVec.ofNat 32 (n + 1) → s.r r3 = T → Table s.m T toConstants →
      (∀ i, i < 8 * (n + 1) → s.m (d + i) = some (b i)) → (∀ i, i < 8 * (n + 1) → ¬ stateR A (d + i)) → Words s.m A w →
      To P (.run (code lab) s) fun c => ∃ s' w', c = P.jump (s.r lr) s' ∧ s'.r r0 = BitVec.ofNat 32 (A + 8 * (l + (n + 1))) ∧
        s'.r r1 = BitVec.ofNat 32 (d + 8 * (n + 1)) ∧ (∀ x, x ∉ [r0, r1, r2, r4, r5, r6, r7, r8, r9] → s'.r x = s.r x) ∧ Fr (stateR A) s.m s'.m ∧
        Words s'.m A w' ∧ ∀ p, sbit w' p = (sbit w p ^^ xb b (8 * l) (8 * (n + 1)) p) := by
  intro n
  induction n with
  | zero =>
    intro s l d b w hl hd hd' h0 h1 h2 h3 ht hb hdis hw
    rw [hcode]
    refine xorBody hload hA (by omega) hd (by omega) h0 h1 h2 (by omega) (by omega) (by rw [h3]; exact ht) (fun i hi => hb i (by omega)) hw ?_
    intro s' a0 a1 a2 az a am aw
    refine To.step (c' := .run (.bx lr :: rest) s') ?_ (To.step (c' := P.jump (s'.r lr) s') rfl (To.here ⟨s', _, ?_, a0, ?_, a, am, aw, ?_⟩))
    · show some (Conf.run (if s'.z then _ else _) s') = _
      rw [az, if_pos (by decide)]
    · rw [a _ (by decide)]
    · rw [a1]
    · intro p; exact sbit_xorLane' w l b p
  | succ n ih =>
    intro s l d b w hl hd hd' h0 h1 h2 h3 ht hb hdis hw
    rw [hcode]
    refine xorBody hload hA (by omega) hd (by omega) h0 h1 h2 (by omega) (by omega) (by rw [h3]; exact ht) (fun i hi => hb i (by omega)) hw ?_
    intro s' a0 a1 a2 az a am aw
    refine To.step (c' := .run (code lab) s') ?_ ((ih s' (l + 1) (d + 8) (fun i => b (8 + i)) _ (by omega) (hC d hd) (by omega) a0 a1 ?_ ?_ ?_ ?_ ?_ aw).bind ?_)
    · show some (Conf.run (if s'.z then _ else P.code lab) s') = _
      rw [az, decide_eq_false (by omega), hP]; rfl
    · rw [a2]; rfl
    · rw [a _ (by decide), h3]
    · exact ht.fr am hT hTA
    · intro i hi
      rw [am.keep _ (by have := hdis (8 + i) (by omega); rwa [← Nat.add_assoc] at this), Nat.add_assoc]; exact hb _ (by omega)
    · intro i hi
      rw [Nat.add_assoc]; exact hdis _ (by omega)
    · rintro c ⟨s2, w', rfl, e0, e1, e, em, ew, ebits⟩
      refine To.here ⟨s2, w', by rw [a _ (by decide)], ?_, ?_, ?_, am.trans em (fun _ h => h) (fun _ h => h), ew, ?_⟩
      · rw [e0]; congr 1; omega
      · rw [e1]; congr 1; omega
      · intro x hx; rw [e x hx, a x hx]
      · intro p
        rw [ebits, sbit_xorLane', show 8 * (n + 1 + 1) = 8 + 8 * (n + 1) by omega, xb_add, Bool.xor_assoc, show 8 * (l + 1) = 8 * l + 8 by omega]

end Saber.Thumb
