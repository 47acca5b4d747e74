import Verif.Proof.Arm.ExtractMain
/-!
# `KeccakF1600_StateInitialize` and `KeccakF1600_StateComplementBit`
-/
namespace Saber.Thumb
open Arm (Reg)
open Arm.Reg
open Op

/-- What a call of these two functions needs. -/
structure PlainCall (f : Lab → W) (s : St) (A S : Nat) : Prop where
  lrOut : s.r lr ∉ retLabels.map f
  hA : A + 200 ≤ 2 ^ 32
  A4 : A % 4 = 0
  a0 : s.r r0 = BitVec.ofNat 32 A
  asp : s.r sp = BitVec.ofNat 32 S
  S4 : S % 4 = 0
  S8 : 8 ≤ S
  hS : S < 2 ^ 32
  acc : ∀ x, stackR S 8 x → (s.m x).isSome
  accA : ∀ x, stateR A x → (s.m x).isSome
  AS : ∀ x, stateR A x → ¬ stackR S 8 x

theorem stmZero {T : Tabs} : ∀ (k : Nat) (s : St) (a : Nat) (l : List Op) (Q : St → Prop), a % 4 = 0 → a + 20 * k ≤ 2 ^ 32 → s.r r0 = BitVec.ofNat 32 a →
    (∀ x ∈ [r1, r2, r3, r4, r5], s.r x = 0) → (∀ x, outR a (20 * k) x → (s.m x).isSome) →
    (∀ s', (∀ x, x ≠ r0 → s'.r x = s.r x) → Fr (outR a (20 * k)) s.m s'.m → (∀ i, i < 5 * k → ld32 s'.m (a + 4 * i) = some 0) → Does T l s' Q) →
    Does T (List.replicate k (stm r0 [r1, r2, r3, r4, r5]) ++ l) s Q
  | 0, s, a, l, Q, _, _, _, _, _, h => h s (fun _ _ => rfl) (Fr.refl _ _) fun i hi => absurd hi (by omega)
  | k + 1, s, a, l, Q, h4, hb, h0, hz, hacc, h => by
    obtain ⟨m', em, fm, lm⟩ := stRegs_ok s.r [r1, r2, r3, r4, r5] a s.m h4 (by simp only [List.length_cons, List.length_nil]; omega)
      (fun x h1 h2 => hacc x ⟨h1, by simp only [List.length_cons, List.length_nil] at h2; omega⟩)
    have fm' : Fr (outR a 20) s.m m' := fm
    have lm' : ∀ i, i < 5 → ld32 m' (a + 4 * i) = some 0 := fun i hi => by
      rw [lm i hi, hz _ (List.getElem_mem (h := hi))]
    show Does T (stm r0 [r1, r2, r3, r4, r5] :: (List.replicate k (stm r0 [r1, r2, r3, r4, r5]) ++ l)) s Q
    refine Does.cons (s' := { s with m := m', r := upd s.r r0 (BitVec.ofNat 32 (a + 20)) }) ?_ ?_
    · unfold exec1; dsimp only
      rw [h0, em, ofNat_add']; rfl
    refine stmZero k _ (a + 20) l Q (by omega) (by omega) (by simp only [upd_same]) ?_ ?_ ?_
    · intro x hx
      rw [← hz x hx]; exact upd_ne _ _ (by rintro rfl; revert hx; decide)
    · intro x hx
      dsimp only
      rw [fm'.acc]; exact hacc x ⟨by have := hx.1; omega, by have := hx.2; omega⟩
    · intro s' h1 h2 h3
      refine h s' (fun x hx => (h1 x hx).trans (upd_ne _ _ hx)) ?_ ?_
      · exact fm'.trans h2 (fun x hx => ⟨hx.1, by have := hx.2; omega⟩) (fun x hx => ⟨by have := hx.1; omega, by have := hx.2; omega⟩)
      · intro i hi
        by_cases h5 : i < 5
        · rw [h2.ld32 fun j hj hx => by have := hx.1; omega]; exact lm' i h5
        · have := h3 (i - 5) (by omega)
          rwa [show a + 20 + 4 * (i - 5) = a + 4 * i by omega] at this

variable {f : Lab → W} {T : Tabs} {s0 : St} {A S : Nat}

/-- The memory that the two functions change. -/
def plainR (A S x : Nat) : Prop := stateR A x ∨ stackR S 8 x

/-- The effect of `KeccakF1600_StateInitialize`. -/
theorem stateInitialize_ok (H : PlainCall f s0 A S) : To (program f T) (.run (code .stateInitialize) s0) fun c =>
    ∃ s', c = .left (s0.r lr) s' ∧ (∀ x, x ∉ [r0, r1, r2, r3] → s'.r x = s0.r x) ∧ Fr (plainR A S) s0.m s'.m ∧ Words s'.m A fun _ => 0 := by
  have S8 := H.S8
  have hS := H.hS
  have hA := H.hA
  show To _ (.run (ops (push [r4, r5] :: movi r1 0 :: movi r2 0 :: movi r3 0 :: movi r4 0 :: movi r5 0 ::
    (List.replicate 10 (stm r0 [r1, r2, r3, r4, r5]) ++ [pop [r4, r5]])) ++ [.bx lr]) s0) _
  obtain ⟨m1, e1, f1, l1⟩ := push_ok (T := T) (s := s0) [r4, r5] H.asp H.S4 S8 hS H.acc
  have f1' : Fr (stackR S 8) s0.m m1 := f1
  refine To.ops (Does.cons e1 (Does.cons rfl (Does.cons rfl (Does.cons rfl (Does.cons rfl (Does.cons rfl ?_))))))
  generalize hs1 : (St.res _ _ _ : St) = s1
  have a : ∀ x ∈ [r1, r2, r3, r4, r5], s1.r x = 0 := by
    intro x hx
    simp only [List.mem_cons, List.not_mem_nil, or_false] at hx
    rw [← hs1]; simp only [St.res]
    rcases hx with rfl | rfl | rfl | rfl | rfl <;> rfl
  have asp : s1.r sp = BitVec.ofNat 32 (S - 8) := by
    rw [← hs1]; simp only [St.res]
    rw [upd_ne _ _ (by decide), upd_ne _ _ (by decide), upd_ne _ _ (by decide), upd_ne _ _ (by decide), upd_ne _ _ (by decide), upd_same]; rfl
  have b : ∀ x, x ∉ [r1, r2, r3, r4, r5, sp] → s1.r x = s0.r x := fun x hx => by
    simp only [List.mem_cons, List.not_mem_nil, or_false, not_or] at hx
    rw [← hs1]; simp only [St.res]
    rw [upd_ne _ _ hx.2.2.2.2.1, upd_ne _ _ hx.2.2.2.1, upd_ne _ _ hx.2.2.1, upd_ne _ _ hx.2.1, upd_ne _ _ hx.1, upd_ne _ _ hx.2.2.2.2.2]
  have m : s1.m = m1 := by rw [← hs1]; rfl
  clear hs1 e1
  refine stmZero 10 s1 A _ _ H.A4 hA ((b _ (by decide)).trans H.a0) a ?_ ?_
  · intro x hx
    rw [m, f1'.acc]; exact H.accA x hx
  intro s2 c cm cw
  rw [m] at cm
  have keep : ∀ i, i < 2 → ld32 s2.m (S - 8 + 4 * i) = some (s0.r ([r4, r5].getD i r0)) := by
    intro i hi
    rw [cm.ld32 fun j hj hx => H.AS _ hx ⟨by omega, by omega⟩]
    have := l1 i hi
    match i, hi with
    | 0, _ => exact this
    | 1, _ => exact this
  obtain ⟨r', e5, p5, q5⟩ := pop_ok (T := T) (s := s2) [r4, r5] (S := S - 8) ((c _ (by decide)).trans asp) (by decide)
    (by simp only [List.length_cons, List.length_nil]; omega) (v := fun i => s0.r ([r4, r5].getD i r0)) keep
  have p4 : r' r4 = s0.r r4 := p5 0 (by decide)
  have p5' : r' r5 = s0.r r5 := p5 1 (by decide)
  refine Does.cons e5 (Does.nil ?_)
  generalize hs3 : ({ s2 with r := _ } : St) = s3
  have g : ∀ x, x ∉ [r0, r1, r2, r3] → s3.r x = s0.r x := by
    intro x hx
    simp only [List.mem_cons, List.not_mem_nil, or_false, not_or] at hx
    rw [← hs3]; dsimp only
    by_cases x1 : x = sp
    · subst x1; rw [upd_same, H.asp]; congr 1; simp only [List.length_cons, List.length_nil]; omega
    rw [upd_ne _ _ x1]
    by_cases x2 : x = r4
    · subst x2; exact p4
    by_cases x3 : x = r5
    · subst x3; exact p5'
    rw [q5 x (by simp [x2, x3]), c x hx.1, b x (by simp [x1, x2, x3, hx])]
  have gm : s3.m = s2.m := by rw [← hs3]
  clear hs3
  refine To.step (c' := .left (s0.r lr) s3) ?_ (To.here ⟨s3, rfl, g, ?_, ?_⟩)
  · show some ((program f T).jump (s3.r lr) s3) = _
    rw [g _ (by decide), jump_out H.lrOut]
  · rw [gm]; exact f1'.trans cm (fun _ h => .inr h) (fun _ h => .inl h)
  · rw [gm]; exact cw

/-- The effect of `KeccakF1600_StateComplementBit`. -/
theorem complementBit_ok (H : PlainCall f s0 A S) {q : Nat} {w : Nat → W} (hq : q < 1600) (h1 : s0.r r1 = BitVec.ofNat 32 q) (hw : Words s0.m A w) :
    To (program f T) (.run (code .complementBit) s0) fun c => ∃ s' w', c = .left (s0.r lr) s' ∧ (∀ x, x ∉ [r0, r1, r2, r3, lr] → s'.r x = s0.r x) ∧
      Fr (plainR A S) s0.m s'.m ∧ Words s'.m A w' ∧ ∀ p, sbit w' p = (sbit w p ^^ decide (p = q)) := by
  have S8 := H.S8
  have hS := H.hS
  have hA := H.hA
  have S4 := H.S4
  have A4 := H.A4
  obtain ⟨m1, e1, f1, l1⟩ := push_ok (T := T) (s := s0) [r4, lr] H.asp H.S4 S8 hS H.acc
  have f1' : Fr (stackR S 8) s0.m m1 := f1
  show To _ (.run (ops complementBitB ++ _) s0) _
  unfold complementBitB
  refine To.ops (Does.cons e1 (Does.cons rfl (Does.cons rfl (Does.cons rfl (Does.cons rfl (Does.cons rfl (Does.cons rfl (Does.cons rfl (Does.cons rfl
    (Does.cons rfl (Does.cons rfl (Does.cons rfl ?_))))))))))))
  generalize hs1 : (St.res _ _ _ : St) = s1
  have and1 : (BitVec.ofNat 32 1 &&& BitVec.ofNat 32 q) = BitVec.ofNat 32 (q % 2) := by
    apply BitVec.eq_of_toNat_eq
    rw [BitVec.toNat_and, toNat_ofNat' _ (by omega), toNat_ofNat' _ (by omega), toNat_ofNat' _ (by omega), Nat.and_comm, Nat.and_one_is_mod]
  have shr6 : BitVec.ofNat 32 q >>> 6 = BitVec.ofNat 32 (q / 64) := by
    apply BitVec.eq_of_toNat_eq
    rw [BitVec.toNat_ushiftRight, toNat_ofNat' _ (by omega), toNat_ofNat' _ (by omega), Nat.shiftRight_eq_div_pow]
  have shl2 : ∀ a k, BitVec.ofNat 32 a <<< k = BitVec.ofNat 32 (a * 2 ^ k) := by
    intro a k
    apply BitVec.eq_of_toNat_eq
    rw [BitVec.toNat_shiftLeft, BitVec.toNat_ofNat, BitVec.toNat_ofNat, Nat.shiftLeft_eq, Nat.mod_mul_mod]
  have pos : (BitVec.ofNat 32 q <<< (32 - 6)) >>> (32 - 5) = BitVec.ofNat 32 (q % 64 / 2) := by
    apply BitVec.eq_of_toNat_eq
    simp only [BitVec.toNat_ushiftRight, BitVec.toNat_shiftLeft, BitVec.toNat_ofNat, Nat.shiftLeft_eq, Nat.shiftRight_eq_div_pow]
    omega
  have cnt : (BitVec.ofNat 32 (q % 64 / 2) &&& 255).toNat = q % 64 / 2 := by
    rw [BitVec.toNat_and, toNat_ofNat' _ (by omega), show (255 : W).toNat = 2 ^ 8 - 1 from rfl, Nat.and_two_pow_sub_one_eq_mod]
    omega
  have a0 : s1.r r0 = BitVec.ofNat 32 (A + 4 * (2 * (q / 64) + q % 2)) := by
    rw [← hs1]; simp only [St.res, Alu.eval]
    simp only [upd_same, upd_ne _ _ (by decide : r0 ≠ r1), upd_ne _ _ (by decide : r0 ≠ r2), upd_ne _ _ (by decide : r0 ≠ r3), upd_ne _ _ (by decide : r0 ≠ r4),
      upd_ne _ _ (by decide : r0 ≠ sp), upd_ne _ _ (by decide : r1 ≠ r0), upd_ne _ _ (by decide : r1 ≠ r2), upd_ne _ _ (by decide : r1 ≠ r3),
      upd_ne _ _ (by decide : r1 ≠ r4), upd_ne _ _ (by decide : r1 ≠ sp), upd_ne _ _ (by decide : r2 ≠ r0), upd_ne _ _ (by decide : r2 ≠ r4),
      upd_ne _ _ (by decide : r3 ≠ r2), upd_ne _ _ (by decide : r3 ≠ r4), upd_ne _ _ (by decide : r4 ≠ r0)]
    rw [H.a0, h1, and1, shr6, shl2, shl2, ofNat_add', ofNat_add']
    congr 1; omega
  have a2 : s1.r r2 = BitVec.ofNat 32 1 <<< (q % 64 / 2) := by
    rw [← hs1]; simp only [St.res, Alu.eval]
    simp only [upd_same, upd_ne _ _ (by decide : r3 ≠ r2), upd_ne _ _ (by decide : r1 ≠ r0), upd_ne _ _ (by decide : r1 ≠ r2), upd_ne _ _ (by decide : r1 ≠ r3),
      upd_ne _ _ (by decide : r1 ≠ r4), upd_ne _ _ (by decide : r1 ≠ sp)]
    rw [h1, pos, cnt]
  have asp : s1.r sp = BitVec.ofNat 32 (S - 8) := by
    rw [← hs1]; simp only [St.res]
    simp only [upd_same, upd_ne _ _ (by decide : sp ≠ r0), upd_ne _ _ (by decide : sp ≠ r2), upd_ne _ _ (by decide : sp ≠ r3), upd_ne _ _ (by decide : sp ≠ r4)]
    rfl
  have b : ∀ x, x ∉ [r0, r2, r3, r4, sp] → s1.r x = s0.r x := fun x hx => by
    simp only [List.mem_cons, List.not_mem_nil, or_false, not_or] at hx
    rw [← hs1]; simp only [St.res]
    simp only [upd_ne _ _ hx.1, upd_ne _ _ hx.2.1, upd_ne _ _ hx.2.2.1, upd_ne _ _ hx.2.2.2.1, upd_ne _ _ hx.2.2.2.2]
  have m : s1.m = m1 := by rw [← hs1]; rfl
  clear hs1 e1
  have hw1 : Words m1 A w := hw.fr f1' H.AS
  have hw0 := hw1 (2 * (q / 64) + q % 2) (by omega)
  refine Does.cons (s' := { s1 with r := upd s1.r r3 (w (2 * (q / 64) + q % 2)) }) ?_ (Does.cons rfl ?_)
  · unfold exec1; dsimp only
    rw [a0, ofNat_add', Nat.add_zero, toNat_ofNat' _ (by omega), m, hw0]
  generalize hs2 : (St.res _ _ _ : St) = s2
  have c3 : s2.r r3 = w (2 * (q / 64) + q % 2) ^^^ (BitVec.ofNat 32 1 <<< (q % 64 / 2)) := by
    rw [← hs2]; simp only [St.res, Alu.eval]; rw [upd_same, upd_same, upd_ne _ _ (by decide), a2]
  have c : ∀ x, x ≠ r3 → s2.r x = s1.r x := fun x hx => by
    rw [← hs2]; simp only [St.res]; rw [upd_ne _ _ hx, upd_ne _ _ hx]
  have cm : s2.m = m1 := by rw [← hs2]; exact m
  clear hs2
  obtain ⟨m3, e3, l3, f3⟩ := st32_ok (m := m1) (a := A + 4 * (2 * (q / 64) + q % 2)) (s2.r r3) (by omega) (ld32_acc hw0).2
  refine Does.cons (s' := { s2 with m := m3 }) ?_ (Does.nil ?_)
  · unfold exec1; dsimp only
    rw [c _ (by decide), a0, ofNat_add', Nat.add_zero, toNat_ofNat' _ (by omega), cm, e3]
  have stA : ∀ x, A + 4 * (2 * (q / 64) + q % 2) ≤ x ∧ x < A + 4 * (2 * (q / 64) + q % 2) + 4 → stateR A x := fun x hx => ⟨by omega, by omega⟩
  have k0 : ld32 m3 (S - 8) = some (s0.r r4) := by
    rw [f3.ld32 fun j hj hx => H.AS _ (stA _ hx) ⟨by omega, by omega⟩]; exact l1 0 (by decide)
  have k1 : ld32 m3 (S - 8 + 4) = some (s0.r lr) := by
    rw [f3.ld32 fun j hj hx => H.AS _ (stA _ hx) ⟨by omega, by omega⟩]; exact l1 1 (by decide)
  obtain ⟨r2', e7, p7, q7⟩ := ldRegs_ok m3 [r4] (S - 8) s2.r (fun _ => s0.r r4) (by decide)
    (by simp only [List.length_cons, List.length_nil]; omega) (by
      intro i hi
      obtain rfl : i = 0 := by simpa using hi
      exact k0)
  have p4 : r2' r4 = s0.r r4 := p7 0 (by decide)
  refine To.step (c' := .left (s0.r lr) { s2 with m := m3, r := upd r2' sp (BitVec.ofNat 32 S) }) ?_
    (To.here ⟨_, fun i => if i = 2 * (q / 64) + q % 2 then s2.r r3 else w i, rfl, ?_, ?_, ?_, ?_⟩)
  · show (match ldRegs m3 (s2.r sp) [r4] s2.r with
      | some r => match ld32 m3 (s2.r sp + BitVec.ofNat 32 4).toNat with
        | some a => some ((program f T).jump a { s2 with m := m3, r := upd r sp (s2.r sp + BitVec.ofNat 32 8) })
        | none => none
      | none => none) = _
    rw [c _ (by decide), asp, e7]; dsimp only
    rw [ofNat_add', toNat_ofNat' _ (by omega), k1]; dsimp only
    rw [jump_out H.lrOut, ofNat_add', show S - 8 + 8 = S by omega]
  · intro x hx
    simp only [List.mem_cons, List.not_mem_nil, or_false, not_or] at hx
    dsimp only
    by_cases x1 : x = sp
    · subst x1; rw [upd_same, H.asp]
    rw [upd_ne _ _ x1]
    by_cases x2 : x = r4
    · subst x2; exact p4
    rw [q7 x (by simp [x2]), c x hx.2.2.2.1, b x (by simp [x1, x2, hx])]
  · exact f1'.trans f3 (fun _ h => .inr h) (fun x h => .inl (stA x h))
  · intro i hi
    dsimp only
    split
    · next h => rw [h]; exact l3
    · next h => rw [f3.ld32 fun j hj hx => by omega]; exact hw1 i hi
  · intro p
    unfold sbit
    dsimp only
    by_cases hp : 2 * (p / 64) + p % 2 = 2 * (q / 64) + q % 2
    · rw [if_pos hp, c3, BitVec.getLsbD_xor, hp]
      congr 1
      rw [BitVec.getLsbD_shiftLeft, BitVec.getLsbD_ofNat, decide_eq_true (by omega : p % 64 / 2 < 32), Bool.true_and]
      by_cases hpq : p = q
      · rw [decide_eq_true hpq, hpq]; simp
      · rw [decide_eq_false hpq]
        by_cases hlt : p % 64 / 2 < q % 64 / 2
        · rw [decide_eq_true hlt]; rfl
        · have h0 : Nat.testBit 1 (p % 64 / 2 - q % 64 / 2) = false :=
            Bool.eq_false_iff.mpr fun h => by
              have := Nat.testBit_one_eq_true_iff_self_eq_zero.mp h
              omega
          rw [h0]; simp
    · rw [if_neg hp, decide_eq_false (by rintro rfl; exact hp rfl), Bool.xor_false]

end Saber.Thumb
