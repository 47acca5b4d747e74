import Verif.Proof.Arm.InLane
/-!
# `KeccakF1600_StateXORBytes`
-/
namespace Saber.Thumb
open Arm (Reg)
open Arm.Reg
open Op

/-- The labels to which the functions return. -/
def retLabels : List Lab := [.xorRet1, .xorRet2, .xorRet3, .extractRet1, .extractRet2, .extractRet3]

theorem find_addr (f : Lab → W) : ∀ (L : List Lab), (L.map f).Nodup → ∀ l ∈ L, L.find? (fun x => f x == f l) = some l
  | [], _, l, h => absurd h (by simp)
  | x :: L, hn, l, h => by
    rw [List.map_cons, List.nodup_cons] at hn
    rw [List.find?_cons]
    by_cases e : l = x
    · subst e; simp
    · have hl : l ∈ L := by simpa [e] using h
      have : (f x == f l) = false := beq_eq_false_iff_ne.2 fun e' => hn.1 (e' ▸ List.mem_map_of_mem hl)
      rw [this]; exact find_addr f L hn.2 l hl

theorem jump_ret {f : Lab → W} {T : Tabs} (hn : (retLabels.map f).Nodup) {l : Lab} (hl : l ∈ retLabels) (s : St) :
    (program f T).jump (f l) s = .run (code l) s := by
  unfold Prog.jump program
  dsimp only
  rw [show [Lab.xorRet1, .xorRet2, .xorRet3, .extractRet1, .extractRet2, .extractRet3].find? (fun x => f x == f l) = some l from find_addr f _ hn l hl]

theorem jump_out {f : Lab → W} {T : Tabs} {a : W} (h : a ∉ retLabels.map f) (s : St) : (program f T).jump a s = .left a s := by
  unfold Prog.jump program
  dsimp only
  rw [show [Lab.xorRet1, .xorRet2, .xorRet3, .extractRet1, .extractRet2, .extractRet3].find? (fun l => f l == a) = none from
    List.find?_eq_none.2 fun l hl e => h (by rw [← eq_of_beq e]; exact List.mem_map_of_mem hl)]

theorem shl_shr (a : Nat) : (BitVec.ofNat 32 a <<< 29) >>> 29 = BitVec.ofNat 32 (a % 8) := by
  apply BitVec.eq_of_toNat_eq
  simp only [BitVec.toNat_ushiftRight, BitVec.toNat_shiftLeft, BitVec.toNat_ofNat, Nat.shiftLeft_eq, Nat.shiftRight_eq_div_pow]
  omega

theorem shr_shl (a : Nat) (h : a < 2 ^ 32) : (BitVec.ofNat 32 a >>> 3) <<< 3 = BitVec.ofNat 32 (8 * (a / 8)) := by
  apply BitVec.eq_of_toNat_eq
  simp only [BitVec.toNat_ushiftRight, BitVec.toNat_shiftLeft, BitVec.toNat_ofNat, Nat.shiftLeft_eq, Nat.shiftRight_eq_div_pow]
  omega

theorem shr3 (a : Nat) (h : a < 2 ^ 32) : BitVec.ofNat 32 a >>> 3 = BitVec.ofNat 32 (a / 8) := by
  apply BitVec.eq_of_toNat_eq
  simp only [BitVec.toNat_ushiftRight, BitVec.toNat_ofNat, Nat.shiftRight_eq_div_pow]
  omega

theorem shl30 (a : Nat) (h : a < 2 ^ 32) : (BitVec.ofNat 32 a <<< 30 == (0 : W)) = decide (a % 4 = 0) := by
  have : (BitVec.ofNat 32 a <<< 30 = (0 : W)) ↔ a % 4 = 0 := by
    rw [← BitVec.toNat_inj, BitVec.toNat_shiftLeft, toNat_ofNat' a h, Nat.shiftLeft_eq, show (0 : W).toNat = 0 from rfl]
    omega
  by_cases e : a % 4 = 0
  · rw [decide_eq_true e]; exact beq_iff_eq.2 (this.2 e)
  · rw [decide_eq_false e]; exact beq_eq_false_iff_ne.2 fun h => e (this.1 h)

theorem sle_ofNat (a b : Nat) (ha : a < 2 ^ 31) (hb : b < 2 ^ 31) : (BitVec.ofNat 32 a).sle (BitVec.ofNat 32 b) = decide (a ≤ b) := by
  rw [BitVec.sle_eq_decide]
  congr 1
  rw [BitVec.toInt_eq_toNat_of_lt (by rw [toNat_ofNat' _ (by omega)]; omega), BitVec.toInt_eq_toNat_of_lt (by rw [toNat_ofNat' _ (by omega)]; omega),
    toNat_ofNat' _ (by omega), toNat_ofNat' _ (by omega)]
  simp

/-- What a call of `KeccakF1600_StateXORBytes` needs. -/
structure XorCall (f : Lab → W) (T : Tabs) (s : St) (A S d o n : Nat) (b : Nat → Byte) (w : Nat → W) : Prop where
  ret : (retLabels.map f).Nodup
  lrOut : s.r lr ∉ retLabels.map f
  hA : A + 200 ≤ 2 ^ 32
  hd : d + n ≤ 2 ^ 32
  hon : o + n ≤ 200
  a0 : s.r r0 = BitVec.ofNat 32 A
  a1 : s.r r1 = BitVec.ofNat 32 d
  a2 : s.r r2 = BitVec.ofNat 32 o
  a3 : s.r r3 = BitVec.ofNat 32 n
  asp : s.r sp = BitVec.ofNat 32 S
  S4 : S % 4 = 0
  S40 : 40 ≤ S
  hS : S < 2 ^ 32
  acc : ∀ x, stackR S 40 x → (s.m x).isSome
  tab : Table s.m (T .to) toConstants
  tabB : (T .to).toNat + 32 ≤ 2 ^ 32
  tabS : ∀ x, (T .to).toNat ≤ x → x < (T .to).toNat + 32 → ¬ stackR S 40 x
  tabA : ∀ x, (T .to).toNat ≤ x → x < (T .to).toNat + 32 → ¬ stateR A x
  data : ∀ i, i < n → s.m (d + i) = some (b i)
  dataS : ∀ i, i < n → ¬ stackR S 40 (d + i)
  dataA : ∀ i, i < n → ¬ stateR A (d + i)
  words : Words s.m A w
  AS : ∀ x, stateR A x → ¬ stackR S 40 x

/-- The memory that the function changes. -/
def xorR (A S x : Nat) : Prop := stateR A x ∨ stackR S 40 x

/-- The state of the machine after `k` of the bytes, in front of lane `l`. -/
structure XorInv (s0 s : St) (A S d o n : Nat) (b : Nat → Byte) (w0 : Nat → W) (k l : Nat) : Prop where
  q0 : s.r r0 = BitVec.ofNat 32 (A + 8 * l)
  q1 : s.r r1 = BitVec.ofNat 32 (d + k)
  qsp : s.r sp = BitVec.ofNat 32 (S - 32)
  qo : ∀ x, x ∉ [r0, r1, r2, r3, r4, r5, r6, r7, r8, r9, sl, lr, sp] → s.r x = s0.r x
  fr : Fr (xorR A S) s0.m s.m
  low : ∀ i, i < 4 → ld32 s.m (S - 32 + 4 * i) = some (s0.r ([r8, r9, sl, r7].getD i r0))
  high : ∀ i, i < 4 → ld32 s.m (S - 16 + 4 * i) = some (s0.r ([r4, r5, r6, lr].getD i r0))
  kn : k ≤ n
  bits : ∃ w, Words s.m A w ∧ ∀ p, sbit w p = (sbit w0 p ^^ xb b o k p)

variable {f : Lab → W} {T : Tabs} {s0 s : St} {A S d o n k l : Nat} {b : Nat → Byte} {w0 : Nat → W}

/-- The end of the function. -/
theorem xorExit_ok (H : XorCall f T s0 A S d o n b w0) (h : XorInv s0 s A S d o n b w0 n l) :
    To (program f T) (.run xorExitC s) fun c => ∃ s' w', c = .left (s0.r lr) s' ∧ (∀ x, x ∉ [r0, r1, r2, r3, lr] → s'.r x = s0.r x) ∧
      Fr (xorR A S) s0.m s'.m ∧ Words s'.m A w' ∧ ∀ p, sbit w' p = (sbit w0 p ^^ xb b o n p) := by
  have S40 := H.S40
  have hS := H.hS
  obtain ⟨r', e5, p5, q5⟩ := pop_ok (T := T) (s := s) [r4, r5, r6, r7] (S := S - 32) h.qsp (by decide)
    (by simp only [List.length_cons, List.length_nil]; omega) (v := fun i => s0.r ([r8, r9, sl, r7].getD i r0)) (by
      intro i hi
      have hi' : i < 4 := hi
      exact h.low i hi')
  unfold xorExitC
  refine To.ops (Does.cons e5 (Does.cons rfl (Does.cons rfl (Does.cons rfl (Does.nil ?_)))))
  generalize hs6 : ({ s with r := _ } : St) = s6
  have p4 : r' r4 = s0.r r8 := p5 0 (by decide)
  have p5' : r' r5 = s0.r r9 := p5 1 (by decide)
  have p6 : r' r6 = s0.r sl := p5 2 (by decide)
  have p7 : r' r7 = s0.r r7 := p5 3 (by decide)
  have g8 : s6.r r8 = s0.r r8 := by
    rw [← hs6]; dsimp only
    rw [upd_ne _ _ (by decide), upd_ne _ _ (by decide), upd_same, upd_ne _ _ (by decide), p4]
  have g9 : s6.r r9 = s0.r r9 := by
    rw [← hs6]; dsimp only
    rw [upd_ne _ _ (by decide), upd_same, upd_ne _ _ (by decide), upd_ne _ _ (by decide), p5']
  have g10 : s6.r sl = s0.r sl := by
    rw [← hs6]; dsimp only
    rw [upd_same, upd_ne _ _ (by decide), upd_ne _ _ (by decide), upd_ne _ _ (by decide), p6]
  have g7 : s6.r r7 = s0.r r7 := by
    rw [← hs6]; dsimp only
    rw [upd_ne _ _ (by decide), upd_ne _ _ (by decide), upd_ne _ _ (by decide), upd_ne _ _ (by decide), p7]
  have gsp : s6.r sp = BitVec.ofNat 32 (S - 16) := by
    rw [← hs6]; dsimp only
    rw [upd_ne _ _ (by decide), upd_ne _ _ (by decide), upd_ne _ _ (by decide), upd_same]
    congr 1; simp only [List.length_cons, List.length_nil]; omega
  have g : ∀ x, x ∉ [r4, r5, r6, r7, r8, r9, sl, sp] → s6.r x = s.r x := fun x hx => by
    simp only [List.mem_cons, List.not_mem_nil, or_false, not_or] at hx
    rw [← hs6]; dsimp only
    rw [upd_ne _ _ hx.2.2.2.2.2.2.1, upd_ne _ _ hx.2.2.2.2.2.1, upd_ne _ _ hx.2.2.2.2.1, upd_ne _ _ hx.2.2.2.2.2.2.2, q5 _ (by simp [hx])]
  have gm : s6.m = s.m := by rw [← hs6]
  clear hs6
  obtain ⟨r2', e7, p7, q7⟩ := ldRegs_ok s6.m [r4, r5, r6] (S - 16) s6.r (fun i => s0.r ([r4, r5, r6, lr].getD i r0)) (by decide)
    (by simp only [List.length_cons, List.length_nil]; omega) (by
      intro i hi
      have hi' : i < 4 := Nat.lt_succ_of_lt hi
      rw [gm, h.high i hi'])
  have hl : ld32 s6.m (S - 16 + 12) = some (s0.r lr) := by rw [gm]; exact h.high 3 (by omega)
  refine To.step (c' := .left (s0.r lr) { s6 with r := upd r2' sp (BitVec.ofNat 32 S) }) ?_ ?_
  · show (match ldRegs s6.m (s6.r sp) [r4, r5, r6] s6.r with
      | some r => match ld32 s6.m (s6.r sp + BitVec.ofNat 32 12).toNat with
        | some a => some ((program f T).jump a { s6 with r := upd r sp (s6.r sp + BitVec.ofNat 32 16) })
        | none => none
      | none => none) = _
    rw [gsp, e7]; dsimp only
    rw [ofNat_add', toNat_ofNat' _ (by omega), hl]; dsimp only
    rw [jump_out H.lrOut, ofNat_add', show S - 16 + 16 = S by omega]
  obtain ⟨w, hw, hbits⟩ := h.bits
  refine To.here ⟨_, w, rfl, ?_, ?_, ?_, hbits⟩
  · intro x hx
    simp only [List.mem_cons, List.not_mem_nil, or_false, not_or] at hx
    dsimp only
    have k4 : r2' r4 = s0.r r4 := p7 0 (by decide)
    have k5 : r2' r5 = s0.r r5 := p7 1 (by decide)
    have k6 : r2' r6 = s0.r r6 := p7 2 (by decide)
    by_cases x1 : x = sp
    · subst x1; rw [upd_same, H.asp]
    rw [upd_ne _ _ x1]
    by_cases x2 : x = r4
    · subst x2; exact k4
    by_cases x3 : x = r5
    · subst x3; exact k5
    by_cases x4 : x = r6
    · subst x4; exact k6
    rw [q7 x (by simp [x2, x3, x4])]
    by_cases x5 : x = r7
    · subst x5; exact g7
    by_cases x6 : x = r8
    · subst x6; exact g8
    by_cases x7 : x = r9
    · subst x7; exact g9
    by_cases x8 : x = sl
    · subst x8; exact g10
    rw [g x (by simp [x1, x2, x3, x4, x5, x6, x7, x8]), h.qo x (by simp [x1, x2, x3, x4, x5, x6, x7, x8, hx])]
  · dsimp only; rw [gm]; exact h.fr
  · dsimp only; rw [gm]; exact hw

/-- The invariant after another chunk. -/
theorem XorInv.next (H : XorCall f T s0 A S d o n b w0) (h : XorInv s0 s A S d o n b w0 k l) {s' : St} {l' j : Nat} {w w' : Nat → W}
    (h0 : s'.r r0 = BitVec.ofNat 32 (A + 8 * l')) (h1 : s'.r r1 = BitVec.ofNat 32 (d + k + j)) (hsp : s'.r sp = s.r sp)
    (ho : ∀ x, x ∉ [r0, r1, r2, r3, r4, r5, r6, r7, r8, r9, sl, lr, sp] → s'.r x = s.r x)
    (hf : Fr (fun x => stateR A x ∨ stackR (S - 32) 8 x) s.m s'.m) (hkn : k + j ≤ n)
    (hw : ∀ p, sbit w p = (sbit w0 p ^^ xb b o k p)) (hw' : Words s'.m A w')
    (hbits : ∀ p, sbit w' p = (sbit w p ^^ xb (fun i => b (k + i)) (o + k) j p)) : XorInv s0 s' A S d o n b w0 (k + j) l' where
  q0 := h0
  q1 := by rw [h1, Nat.add_assoc]
  qsp := hsp.trans h.qsp
  qo x hx := (ho x hx).trans (h.qo x hx)
  fr := h.fr.trans hf (fun _ h => h) fun x hx => hx.imp id fun hx => ⟨by have := hx.1; omega, by have := hx.2; omega⟩
  low i hi := by
    have := H.S40
    have hAS := H.AS
    rw [hf.ld32 fun j hj hx => ?_]
    · exact h.low i hi
    · rcases hx with hx | hx
      · exact hAS _ hx ⟨by omega, by omega⟩
      · have := hx.2; omega
  high i hi := by
    have := H.S40
    have hAS := H.AS
    rw [hf.ld32 fun j hj hx => ?_]
    · exact h.high i hi
    · rcases hx with hx | hx
      · exact hAS _ hx ⟨by omega, by omega⟩
      · have := hx.2; omega
  kn := hkn
  bits := ⟨w', hw', fun p => by rw [hbits, hw, xb_add, Bool.xor_assoc]⟩

/-- The table is still there. -/
theorem XorInv.table (H : XorCall f T s0 A S d o n b w0) (h : XorInv s0 s A S d o n b w0 k l) : Table s.m (T .to) toConstants :=
  H.tab.fr h.fr H.tabB fun x h1 h2 h3 => h3.elim (H.tabA x h1 h2) (H.tabS x h1 h2)

/-- A call of `__KeccakF1600_StateXORBytesInLane`. -/
theorem XorInv.inLane (H : XorCall f T s0 A S d o n b w0) (h : XorInv s0 s A S d o n b w0 k l) {o' j : Nat} {lab : Lab} (hlab : lab ∈ retLabels)
    (h2 : s.r r2 = BitVec.ofNat 32 o') (h3 : s.r r3 = BitVec.ofNat 32 j) (h7 : s.r r7 = T .to) (hlr : s.r lr = f lab) (hj : 1 ≤ j) (hoj : o' + j ≤ 8)
    (hkn : k + j ≤ n) (hol : o + k = 8 * l + o') :
    To (program f T) (.run (code .xorInLane) s) fun c => ∃ s', c = .run (code lab) s' ∧ XorInv s0 s' A S d o n b w0 (k + j) (l + 1) ∧ s'.r sl = s.r sl := by
  have S40 := H.S40
  have hS := H.hS
  have S4 := H.S4
  have hd := H.hd
  have hon := H.hon
  have sub : ∀ x, stackR (S - 32) 8 x → stackR S 40 x := fun x hx => ⟨by have := hx.1; omega, by have := hx.2; omega⟩
  obtain ⟨w, hw, hbits⟩ := h.bits
  refine (xorInLane_ok (P := program f T) rfl (S := S - 32) (b := fun i => b (k + i)) H.hA (by omega) hj hoj (by omega) h.q0 h.q1 h2 h3 h.qsp (by omega) (by omega) (by omega)
    ?_ (by rw [h7]; exact h.table H) (by rw [h7]; exact H.tabB) (by rw [h7]; exact fun x h1 h2 h3 => H.tabS x h1 h2 (sub x h3)) ?_ ?_ hw
    fun x hx hx' => H.AS x hx (sub x hx')).bind ?_
  · intro x hx
    rw [h.fr.acc]; exact H.acc x (sub x hx)
  · intro i hi
    rw [h.fr.keep _ ?_, Nat.add_assoc]
    · exact H.data _ (by omega)
    · rw [Nat.add_assoc]
      rintro (hx | hx)
      · exact H.dataA (k + i) (by omega) hx
      · exact H.dataS (k + i) (by omega) hx
  · intro i hi hx
    rw [Nat.add_assoc] at hx
    exact H.dataS (k + i) (by omega) (sub _ hx)
  rintro c ⟨s', w', rfl, e0, e1, e, em, ew, eb⟩
  refine To.here ⟨s', by rw [hlr, jump_ret H.ret hlab], ?_, e _ (by decide)⟩
  refine h.next H e0 e1 (e _ (by decide)) (fun x hx => e x ?_) em hkn hbits ew (by rw [hol]; exact eb)
  simp only [List.mem_cons, List.not_mem_nil, or_false, not_or] at hx ⊢
  simp [hx]

/-- What the function does. -/
def XorDone (s0 : St) (A S o n : Nat) (b : Nat → Byte) (w0 : Nat → W) (c : Conf Lab) : Prop :=
  ∃ s' w', c = .left (s0.r lr) s' ∧ (∀ x, x ∉ [r0, r1, r2, r3, lr] → s'.r x = s0.r x) ∧
      Fr (xorR A S) s0.m s'.m ∧ Words s'.m A w' ∧ ∀ p, sbit w' p = (sbit w0 p ^^ xb b o n p)

theorem xorTail_ok (H : XorCall f T s0 A S d o n b w0) (h : XorInv s0 s A S d o n b w0 k l) (hkl : k < n → 8 * l = o + k)
    (h3 : s.r r3 = BitVec.ofNat 32 (n - k)) (hk : n - k < 8) :
    To (program f T) (.run xorTailC s) (XorDone s0 A S o n b w0) := by
  have hd := H.hd
  have hon := H.hon
  have kn := h.kn
  unfold xorTailC
  refine To.step rfl ?_
  generalize hs1 : ({ s with z := _, le := _ } : St) = s1
  have z1 : s1.z = decide (n - k = 0) := by
    rw [← hs1]; dsimp only; rw [h3]; exact ofNat_beq_zero _ (by omega)
  have e1 : s1.r = s.r := by rw [← hs1]
  have m1 : s1.m = s.m := by rw [← hs1]
  clear hs1
  by_cases hz : n - k = 0
  · refine To.step (c' := .run xorExitC s1) ?_ ?_
    · show some (Conf.run (if s1.z then _ else _) s1) = _
      rw [z1, decide_eq_true hz, if_pos rfl]; rfl
    obtain rfl : k = n := by omega
    refine xorExit_ok H (l := l) ?_
    obtain ⟨a, b, c, d, e, f, g, h, j⟩ := h
    constructor <;> (first | rw [e1] | rw [m1] | skip) <;> assumption
  · refine To.step (c' := .run (ops [movi r2 0, adr r7 .to] ++ .bl .xorInLane .xorRet3 :: xorExitC) s1) ?_ ?_
    · show some (Conf.run (if s1.z then _ else _) s1) = _
      rw [z1, decide_eq_false hz]; rfl
    refine To.ops (Does.cons rfl (Does.cons rfl (Does.nil ?_)))
    refine To.step (c' := .run (code .xorInLane) _) rfl ?_
    generalize hs2 : (St.mk (upd _ lr _) _ _ _) = s2
    have c2 : s2.r r2 = BitVec.ofNat 32 0 := by
      rw [← hs2]; simp only [St.res]; rw [upd_ne _ _ (by decide), upd_ne _ _ (by decide), upd_same]
    have c7 : s2.r r7 = T .to := by
      rw [← hs2]; simp only [St.res]; rw [upd_ne _ _ (by decide), upd_same]; rfl
    have clr : s2.r lr = f .xorRet3 := by
      rw [← hs2]; simp only [St.res]; rw [upd_same]; rfl
    have c : ∀ x, x ∉ [r2, r7, lr] → s2.r x = s.r x := fun x hx => by
      simp only [List.mem_cons, List.not_mem_nil, or_false, not_or] at hx
      rw [← hs2]; simp only [St.res]; rw [upd_ne _ _ hx.2.2, upd_ne _ _ hx.2.1, upd_ne _ _ hx.1, e1]
    have cm : s2.m = s.m := by rw [← hs2]; exact m1
    clear hs2
    have h' : XorInv s0 s2 A S d o n b w0 k l := by
      obtain ⟨a, b, c', d, e, f, g, h, j⟩ := h
      constructor
      · rw [c _ (by decide)]; exact a
      · rw [c _ (by decide)]; exact b
      · rw [c _ (by decide)]; exact c'
      · intro x hx; rw [c x (by simp only [List.mem_cons, List.not_mem_nil, or_false, not_or] at hx ⊢; simp [hx])]; exact d x hx
      all_goals (try rw [cm]) <;> assumption
    have := hkl (by omega)
    refine (h'.inLane H (lab := .xorRet3) (by decide) c2 (by rw [c _ (by decide), h3]) c7 clr (by omega) (by omega) (by omega) (by omega)).bind ?_
    rintro _ ⟨s3, rfl, h3, -⟩
    rw [show k + (n - k) = n by omega] at h3
    exact xorExit_ok H h3

/-- The invariant only concerns some registers. -/
theorem XorInv.congr (h : XorInv s0 s A S d o n b w0 k l) {s' : St} (hr : ∀ x, x ∉ [r2, r3, r4, r5, r6, r7, r8, r9, sl, lr] → s'.r x = s.r x) (hm : s'.m = s.m) :
    XorInv s0 s' A S d o n b w0 k l := by
  obtain ⟨a, b, c, d, e, f, g, h, j⟩ := h
  constructor
  · rw [hr _ (by decide)]; exact a
  · rw [hr _ (by decide)]; exact b
  · rw [hr _ (by decide)]; exact c
  · intro x hx; rw [hr x (by simp only [List.mem_cons, List.not_mem_nil, or_false, not_or] at hx ⊢; simp [hx])]; exact d x hx
  all_goals (try rw [hm]) <;> assumption

/-- A call of `__KeccakF1600_StateXORLanes`. -/
theorem XorInv.lanes (H : XorCall f T s0 A S d o n b w0) (h : XorInv s0 s A S d o n b w0 k l) {j : Nat} {lab : Lab} (hlab : lab ∈ retLabels)
    (h2 : s.r r2 = BitVec.ofNat 32 (j + 1)) (h3 : s.r r3 = T .to) (hlr : s.r lr = f lab) (hkn : k + 8 * (j + 1) ≤ n) (hol : o + k = 8 * l) :
    To (program f T) (.run (code .xorLanes) s) fun c => ∃ s', c = .run (code lab) s' ∧ XorInv s0 s' A S d o n b w0 (k + 8 * (j + 1)) (l + (j + 1)) ∧ s'.r sl = s.r sl := by
  have hd := H.hd
  have hon := H.hon
  obtain ⟨w, hw, hbits⟩ := h.bits
  refine To.step rfl ?_
  generalize hs1 : (St.res _ _ _ : St) = s1
  have c : ∀ x, x ≠ r4 → s1.r x = s.r x := fun x hx => by rw [← hs1]; simp only [St.res]; rw [upd_ne _ _ hx]
  have cm : s1.m = s.m := by rw [← hs1]; rfl
  have cz : s1.z = decide ((d + k) % 4 = 0) := by
    rw [← hs1]; simp only [St.res]; rw [h.q1]; exact shl30 _ (by omega)
  clear hs1
  have key : ∀ (lab' : Lab) (ld : List Op) (rest : List I) (C : Nat → Prop), (∀ d, C d → C (d + 8)) → C (d + k) → Loads T ld C →
      code lab' = ops ld ++ (ops [mov r8 r6, mov r9 r7] ++ (ops (toBitInterleaving r8 r9 r6 r7 r5 r4 r3) ++ (ops xorStore ++ (.bne lab' :: .bx lr :: rest)))) →
      To (program f T) (.run (code lab') s1) fun c => ∃ s', c = .run (code lab) s' ∧ XorInv s0 s' A S d o n b w0 (k + 8 * (j + 1)) (l + (j + 1)) ∧ s'.r sl = s.r sl := by
    intro lab' ld rest C hC hC' hload hcode
    refine (xorLoop (P := program f T) rfl hC hcode hload H.hA (T := T .to) H.tabB H.tabA j s1 l (d + k) (fun i => b (k + i)) w (by omega) hC' (by omega)
      (by rw [c _ (by decide), h.q0]) (by rw [c _ (by decide), h.q1]) (by rw [c _ (by decide), h2]) (by rw [c _ (by decide), h3])
      (by rw [cm]; exact h.table H) ?_ ?_ (by rw [cm]; exact hw)).bind ?_
    · intro i hi
      rw [cm, h.fr.keep _ ?_, Nat.add_assoc]
      · exact H.data _ (by omega)
      · rw [Nat.add_assoc]
        rintro (hx | hx)
        · exact H.dataA (k + i) (by omega) hx
        · exact H.dataS (k + i) (by omega) hx
    · intro i hi
      rw [Nat.add_assoc]; exact H.dataA _ (by omega)
    · rintro c' ⟨s', w', rfl, e0, e1, e, em, ew, eb⟩
      rw [cm] at em
      refine To.here ⟨s', by rw [c _ (by decide), hlr, jump_ret H.ret hlab], ?_, by rw [e _ (by decide), c _ (by decide)]⟩
      refine h.next H e0 e1 (by rw [e _ (by decide), c _ (by decide)]) (fun x hx => ?_) (em.mono fun x hx => .inl hx) hkn hbits ew (by rw [hol]; exact eb)
      simp only [List.mem_cons, List.not_mem_nil, or_false, not_or] at hx
      rw [e x (by simp [hx]), c x (by simp [hx])]
  by_cases hz : (d + k) % 4 = 0
  · refine To.step (c' := .run (code .xorLoopAligned) s1) ?_ ?_
    · show some (Conf.run (if s1.z then _ else _) s1) = _
      rw [cz, decide_eq_true hz]; rfl
    · exact key .xorLoopAligned _ xorLoopUnalignedC _ (fun d hd => by omega) hz (load_aligned T) rfl
  · refine To.step (c' := .run (code .xorLoopUnaligned) s1) ?_ ?_
    · show some (Conf.run (if s1.z then _ else _) s1) = _
      rw [cz, decide_eq_false hz]; rfl
    · exact key .xorLoopUnaligned _ [] _ (fun _ _ => trivial) trivial (load_unaligned T) rfl

theorem xorCheckLanes_ok (H : XorCall f T s0 A S d o n b w0) (h : XorInv s0 s A S d o n b w0 k l) (hkl : k < n → 8 * l = o + k)
    (h3 : s.r r3 = BitVec.ofNat 32 (n - k)) :
    To (program f T) (.run xorCheckLanesC s) (XorDone s0 A S o n b w0) := by
  have hd := H.hd
  have hon := H.hon
  have kn := h.kn
  unfold xorCheckLanesC
  refine To.step rfl ?_
  generalize hs1 : (St.res _ _ _ : St) = s1
  have c2 : s1.r r2 = BitVec.ofNat 32 ((n - k) / 8) := by
    rw [← hs1]; simp only [St.res]; rw [upd_same, h3, shr3 _ (by omega)]
  have c : ∀ x, x ≠ r2 → s1.r x = s.r x := fun x hx => by rw [← hs1]; simp only [St.res]; rw [upd_ne _ _ hx]
  have cm : s1.m = s.m := by rw [← hs1]; rfl
  have cz : s1.z = decide ((n - k) / 8 = 0) := by
    rw [← hs1]; simp only [St.res]; rw [h3, shr3 _ (by omega)]; exact ofNat_beq_zero _ (by omega)
  clear hs1
  have h' := h.congr (s' := s1) (fun x hx => c x fun e => hx (by simp [e])) cm
  by_cases hz : (n - k) / 8 = 0
  · refine To.step (c' := .run xorTailC s1) ?_ (xorTail_ok H h' hkl (by rw [c _ (by decide), h3]) (by omega))
    show some (Conf.run (if s1.z then _ else _) s1) = _
    rw [cz, decide_eq_true hz]; rfl
  refine To.step (c' := .run (ops [mov sl r3, adr r3 .to] ++ .bl .xorLanes .xorRet2 :: xorRet2C) s1) ?_ ?_
  · show some (Conf.run (if s1.z then _ else _) s1) = _
    rw [cz, decide_eq_false hz]; rfl
  refine To.ops (Does.cons rfl (Does.cons rfl (Does.nil ?_)))
  refine To.step (c' := .run (code .xorLanes) _) rfl ?_
  generalize hs2 : (St.mk (upd _ lr _) _ _ _) = s2
  have d3 : s2.r r3 = T .to := by
    rw [← hs2]; dsimp only; rw [upd_ne _ _ (by decide), upd_same]; rfl
  have dsl : s2.r sl = BitVec.ofNat 32 (n - k) := by
    rw [← hs2]; dsimp only; rw [upd_ne _ _ (by decide), upd_ne _ _ (by decide), upd_same, c _ (by decide), h3]
  have dlr : s2.r lr = f .xorRet2 := by
    rw [← hs2]; dsimp only; rw [upd_same]; rfl
  have dd : ∀ x, x ∉ [r3, sl, lr] → s2.r x = s1.r x := fun x hx => by
    simp only [List.mem_cons, List.not_mem_nil, or_false, not_or] at hx
    rw [← hs2]; dsimp only; rw [upd_ne _ _ hx.2.2, upd_ne _ _ hx.1, upd_ne _ _ hx.2.1]
  have dm : s2.m = s1.m := by rw [← hs2]
  clear hs2
  have h2 := h'.congr (s' := s2) (fun x hx => dd x (by simp only [List.mem_cons, List.not_mem_nil, or_false, not_or] at hx ⊢; simp [hx])) dm
  have kl := hkl (by omega)
  refine (h2.lanes H (j := (n - k) / 8 - 1) (lab := .xorRet2) (by decide) (by rw [dd _ (by decide), c2]; congr 1; omega) d3 dlr (by omega) (by omega)).bind ?_
  rintro _ ⟨s3, rfl, h5, esl⟩
  rw [dsl] at esl
  show To _ (.run (ops [mov r3 sl, lsls r3 r3 29, lsrs r3 r3 29] ++ xorTailC) s3) _
  refine To.ops (Does.cons rfl (Does.cons rfl (Does.cons rfl (Does.nil ?_))))
  generalize hs4 : (St.res _ _ _ : St) = s4
  have g3 : s4.r r3 = BitVec.ofNat 32 ((n - k) % 8) := by
    rw [← hs4]; simp only [St.res]; rw [upd_same, upd_same, upd_same, esl, shl_shr]
  have g : ∀ x, x ≠ r3 → s4.r x = s3.r x := fun x hx => by
    rw [← hs4]; simp only [St.res]; rw [upd_ne _ _ hx, upd_ne _ _ hx, upd_ne _ _ hx]
  have gm : s4.m = s3.m := by rw [← hs4]; rfl
  exact xorTail_ok H (h5.congr (s' := s4) (fun x hx => g x fun e => hx (by simp [e])) gm) (by omega) (by rw [g3]; congr 1; omega) (by omega)

/-- The effect of `KeccakF1600_StateXORBytes`. -/
theorem xorBytes_ok (H : XorCall f T s0 A S d o n b w0) : To (program f T) (.run (code .xorBytes) s0) (XorDone s0 A S o n b w0) := by
  have S40 := H.S40
  have hS := H.hS
  have S4 := H.S4
  have hd := H.hd
  have hon := H.hon
  show To _ (.run xorBytesC s0) _
  unfold xorBytesC
  refine To.step rfl ?_
  generalize hs1 : ({ s0 with z := _, le := _ } : St) = s1
  have z1 : s1.z = decide (n = 0) := by
    rw [← hs1]; dsimp only; rw [H.a3]; exact ofNat_beq_zero _ (by omega)
  have e1 : s1.r = s0.r := by rw [← hs1]
  have m1 : s1.m = s0.m := by rw [← hs1]
  clear hs1
  by_cases hz : n = 0
  · subst hz
    refine To.step (c' := .run [.bx lr] s1) ?_ (To.step (c' := .left (s0.r lr) s1) ?_ (To.here ⟨s1, w0, rfl, fun x _ => by rw [e1], ?_, ?_, fun p => ?_⟩))
    · show some (Conf.run (if s1.z then _ else _) s1) = _
      rw [z1]; rfl
    · show some ((program f T).jump (s1.r lr) s1) = _
      rw [e1, jump_out H.lrOut]
    · rw [m1]; exact Fr.refl _ _
    · rw [m1]; exact H.words
    · unfold xb; rw [decide_eq_false (by omega), Bool.false_and, Bool.xor_false]
  refine To.step (c' := .run (ops _ ++ _) s1) (by
    show some (Conf.run (if s1.z then _ else _) s1) = _
    rw [z1, decide_eq_false hz]; rfl) ?_
  obtain ⟨ma, ea, fa, la⟩ := push_ok (T := T) (s := s1) [r4, r5, r6, lr] (S := S) (by rw [e1, H.asp]) S4 (by simp only [List.length_cons, List.length_nil]; omega) hS
    (fun x hx => by rw [m1]; exact H.acc x ⟨by have := hx.1; simp only [List.length_cons, List.length_nil] at this; omega, hx.2⟩)
  refine To.ops (Does.cons ea (Does.cons rfl (Does.cons rfl (Does.cons rfl ?_))))
  generalize hs2 : ({ s1 with r := _, m := _ } : St) = s2
  have a4 : s2.r r4 = s0.r r8 := by
    rw [← hs2]; dsimp only
    rw [upd_ne _ _ (by decide), upd_ne _ _ (by decide), upd_same, upd_ne _ _ (by decide), e1]
  have a5 : s2.r r5 = s0.r r9 := by
    rw [← hs2]; dsimp only
    rw [upd_ne _ _ (by decide), upd_same, upd_ne _ _ (by decide), upd_ne _ _ (by decide), e1]
  have a6 : s2.r r6 = s0.r sl := by
    rw [← hs2]; dsimp only
    rw [upd_same, upd_ne _ _ (by decide), upd_ne _ _ (by decide), upd_ne _ _ (by decide), e1]
  have asp : s2.r sp = BitVec.ofNat 32 (S - 16) := by
    rw [← hs2]; dsimp only
    rw [upd_ne _ _ (by decide), upd_ne _ _ (by decide), upd_ne _ _ (by decide), upd_same]; rfl
  have a : ∀ x, x ∉ [r4, r5, r6, sp] → s2.r x = s0.r x := fun x hx => by
    simp only [List.mem_cons, List.not_mem_nil, or_false, not_or] at hx
    rw [← hs2]; dsimp only
    rw [upd_ne _ _ hx.2.2.1, upd_ne _ _ hx.2.1, upd_ne _ _ hx.1, upd_ne _ _ hx.2.2.2, e1]
  have am : s2.m = ma := by rw [← hs2]
  clear hs2 ea
  rw [m1] at fa
  obtain ⟨mb, eb, fb, lb⟩ := push_ok (T := T) (s := s2) [r4, r5, r6, r7] (S := S - 16) asp (by omega) (by simp only [List.length_cons, List.length_nil]; omega) (by omega)
    (fun x hx => by
      rw [am, fa.acc]
      exact H.acc x ⟨by have := hx.1; simp only [List.length_cons, List.length_nil] at this; omega, by have := hx.2; omega⟩)
  rw [am] at fb
  refine Does.cons eb (Does.cons rfl (Does.cons rfl (Does.cons rfl (Does.cons rfl (Does.cons rfl (Does.nil ?_))))))
  generalize hs3 : (St.res _ _ _ : St) = s3
  have c0 : s3.r r0 = BitVec.ofNat 32 (A + 8 * (o / 8)) := by
    rw [← hs3]; simp only [St.res, Alu.eval]
    rw [upd_ne _ _ (by decide), upd_ne _ _ (by decide), upd_same, upd_ne _ _ (by decide), upd_ne _ _ (by decide), upd_ne _ _ (by decide), upd_same, upd_same,
      upd_ne _ _ (by decide), a _ (by decide), a _ (by decide), H.a0, H.a2, shr_shl _ (by omega), ofNat_add']
  have c2 : s3.r r2 = BitVec.ofNat 32 (o % 8) := by
    rw [← hs3]; simp only [St.res, Alu.eval]
    rw [upd_same, upd_same, upd_ne _ _ (by decide), upd_ne _ _ (by decide), upd_ne _ _ (by decide), upd_ne _ _ (by decide), a _ (by decide), H.a2, shl_shr]
  have cz : s3.z = decide (o % 8 = 0) := by
    rw [← hs3]; simp only [St.res, Alu.eval]
    rw [upd_same, upd_ne _ _ (by decide), upd_ne _ _ (by decide), upd_ne _ _ (by decide), upd_ne _ _ (by decide), a _ (by decide), H.a2, shl_shr]
    exact ofNat_beq_zero _ (by omega)
  have csp : s3.r sp = BitVec.ofNat 32 (S - 32) := by
    rw [← hs3]; simp only [St.res, Alu.eval]
    rw [upd_ne _ _ (by decide), upd_ne _ _ (by decide), upd_ne _ _ (by decide), upd_ne _ _ (by decide), upd_ne _ _ (by decide), upd_same]
    congr 1
  have c : ∀ x, x ∉ [r0, r2, r4, r5, r6, sp] → s3.r x = s0.r x := fun x hx => by
    simp only [List.mem_cons, List.not_mem_nil, or_false, not_or] at hx
    rw [← hs3]; simp only [St.res, Alu.eval]
    rw [upd_ne _ _ hx.2.1, upd_ne _ _ hx.2.1, upd_ne _ _ hx.1, upd_ne _ _ hx.2.2.1, upd_ne _ _ hx.2.2.1, upd_ne _ _ hx.2.2.2.2.2, a x (by simp [hx])]
  have cm : s3.m = mb := by rw [← hs3]; rfl
  clear hs3 eb
  have fr3 : Fr (stackR S 40) s0.m s3.m := by
    rw [cm]
    refine fa.trans fb (fun x hx => ⟨?_, hx.2⟩) (fun x hx => ⟨?_, ?_⟩)
    · have := hx.1; simp only [List.length_cons, List.length_nil] at this; omega
    · have := hx.1; simp only [List.length_cons, List.length_nil] at this; omega
    · have := hx.2; omega
  have l32 : ∀ i, i < 4 → ld32 s3.m (S - 32 + 4 * i) = some (s0.r ([r8, r9, sl, r7].getD i r0)) := by
    intro i hi
    have := lb i hi
    rw [cm]
    simp only [List.length_cons, List.length_nil, Nat.sub_sub] at this
    match i, hi with
    | 0, _ => exact this.trans (congrArg some a4)
    | 1, _ => exact this.trans (congrArg some a5)
    | 2, _ => exact this.trans (congrArg some a6)
    | 3, _ => exact this.trans (congrArg some (a r7 (by decide)))
  have l16 : ∀ i, i < 4 → ld32 s3.m (S - 16 + 4 * i) = some (s0.r ([r4, r5, r6, lr].getD i r0)) := by
    intro i hi
    have := la i hi
    rw [cm, fb.ld32 fun j hj hx => by have := hx.2; omega]
    rw [e1] at this
    match i, hi with
    | 0, _ => exact this
    | 1, _ => exact this
    | 2, _ => exact this
    | 3, _ => exact this
  have inv : XorInv s0 s3 A S d o n b w0 0 (o / 8) := by
    refine ⟨c0, by rw [c _ (by decide), H.a1]; rfl, csp, fun x hx => c x ?_, fr3.mono fun x hx => .inr hx, l32, l16, by omega, w0, ?_, fun p => ?_⟩
    · simp only [List.mem_cons, List.not_mem_nil, or_false, not_or] at hx ⊢; simp [hx]
    · exact H.words.fr fr3 H.AS
    · unfold xb; rw [decide_eq_false (by omega), Bool.false_and, Bool.xor_false]
  by_cases ho : o % 8 = 0
  · refine To.step (c' := .run xorCheckLanesC s3) ?_ (xorCheckLanes_ok H inv (by omega) (by rw [c _ (by decide), H.a3]; rfl))
    show some (Conf.run (if s3.z then _ else _) s3) = _
    rw [cz, decide_eq_true ho]; rfl
  refine To.step (c' := .run (ops [movs r4 r3, movi r5 8, alu .sub r5 r5 r2, cmp r4 r5] ++ .ble .xorAlign :: .op (movs r4 r5) :: xorAlignC) s3) (by
    show some (Conf.run (if s3.z then _ else _) s3) = _
    rw [cz, decide_eq_false ho]; rfl) ?_
  refine To.ops (Does.cons rfl (Does.cons rfl (Does.cons rfl (Does.cons rfl (Does.nil ?_)))))
  generalize hs4 : (St.mk _ _ _ _) = s4
  have d4 : s4.r r4 = BitVec.ofNat 32 n := by
    rw [← hs4]; simp only [St.res]
    rw [upd_ne _ _ (by decide), upd_ne _ _ (by decide), upd_same, c _ (by decide), H.a3]
  have d5 : s4.r r5 = BitVec.ofNat 32 (8 - o % 8) := by
    rw [← hs4]; simp only [St.res, Alu.eval]
    rw [upd_same, upd_same, upd_ne _ _ (by decide), upd_ne _ _ (by decide), c2, ofNat_sub _ _ (by omega) (by omega)]
  have dd : ∀ x, x ∉ [r4, r5] → s4.r x = s3.r x := fun x hx => by
    simp only [List.mem_cons, List.not_mem_nil, or_false, not_or] at hx
    rw [← hs4]; simp only [St.res]; rw [upd_ne _ _ hx.2, upd_ne _ _ hx.2, upd_ne _ _ hx.1]
  have dm : s4.m = s3.m := by rw [← hs4]; rfl
  have dle : s4.le = some (decide (n ≤ 8 - o % 8)) := by
    have : s4.le = some ((s4.r r4).sle (s4.r r5)) := by rw [← hs4]
    rw [this, d4, d5, sle_ofNat _ _ (by omega) (by omega)]
  clear hs4
  have align : ∀ s5 : St, s5.r r4 = BitVec.ofNat 32 (min n (8 - o % 8)) → (∀ x, x ∉ [r4, r5] → s5.r x = s3.r x) → s5.m = s3.m →
      To (program f T) (.run xorAlignC s5) (XorDone s0 A S o n b w0) := by
    intro s5 g4 g gm
    unfold xorAlignC
    refine To.ops (Does.cons rfl (Does.cons rfl (Does.cons rfl (Does.cons rfl (Does.nil ?_)))))
    refine To.step (c' := .run (code .xorInLane) _) rfl ?_
    generalize hs6 : (St.mk (upd _ lr _) _ _ _) = s6
    have i3 : s6.r r3 = BitVec.ofNat 32 (min n (8 - o % 8)) := by
      rw [← hs6]; simp only [St.res]
      rw [upd_ne _ _ (by decide), upd_ne _ _ (by decide), upd_same, upd_ne _ _ (by decide), upd_ne _ _ (by decide), g4]
    have isl : s6.r sl = BitVec.ofNat 32 (n - min n (8 - o % 8)) := by
      rw [← hs6]; simp only [St.res, Alu.eval]
      rw [upd_ne _ _ (by decide), upd_ne _ _ (by decide), upd_ne _ _ (by decide), upd_same, upd_same, g4, g _ (by decide), c _ (by decide), H.a3,
        ofNat_sub _ _ (by omega) (by omega)]
    have i7 : s6.r r7 = T .to := by
      rw [← hs6]; simp only [St.res]; rw [upd_ne _ _ (by decide), upd_same]; rfl
    have ilr : s6.r lr = f .xorRet1 := by
      rw [← hs6]; simp only [St.res]; rw [upd_same]; rfl
    have i : ∀ x, x ∉ [r3, r4, r5, r7, sl, lr] → s6.r x = s3.r x := fun x hx => by
      simp only [List.mem_cons, List.not_mem_nil, or_false, not_or] at hx
      rw [← hs6]; simp only [St.res]
      rw [upd_ne _ _ hx.2.2.2.2.2, upd_ne _ _ hx.2.2.2.1, upd_ne _ _ hx.1, upd_ne _ _ hx.2.2.2.2.1, upd_ne _ _ hx.1, g x (by simp [hx])]
    have im : s6.m = s3.m := by rw [← hs6]; exact gm
    clear hs6
    have inv6 := inv.congr (s' := s6) (fun x hx => i x (by simp only [List.mem_cons, List.not_mem_nil, or_false, not_or] at hx ⊢; simp [hx])) im
    refine (inv6.inLane H (lab := .xorRet1) (by decide) (by rw [i _ (by decide), c2]) i3 i7 ilr (by omega) (by omega) (by omega) (by omega)).bind ?_
    rintro _ ⟨s7, rfl, inv7, jsl⟩
    rw [isl] at jsl
    refine To.step (c' := .run xorCheckLanesC { s7 with r := upd s7.r r3 (s7.r sl) }) rfl ?_
    refine xorCheckLanes_ok H (inv7.congr (fun x hx => upd_ne _ _ fun e => hx (by simp [e])) rfl) (by omega) ?_
    dsimp only
    rw [upd_same, jsl, Nat.zero_add]
  by_cases hle : n ≤ 8 - o % 8
  · refine To.step (c' := .run xorAlignC s4) ?_ (align s4 (by rw [d4, Nat.min_eq_left hle]) dd dm)
    show s4.le.map _ = _
    rw [dle, decide_eq_true hle]; rfl
  · refine To.step (c' := .run (.op (movs r4 r5) :: xorAlignC) s4) ?_ (To.step (c' := .run xorAlignC (s4.res r4 (s4.r r5))) rfl (align _ ?_ ?_ dm))
    · show s4.le.map _ = _
      rw [dle, decide_eq_false hle]; rfl
    · simp only [St.res]; rw [upd_same, d5, Nat.min_eq_right (by omega)]
    · intro x hx
      simp only [St.res]
      rw [upd_ne _ _ fun e => hx (by simp [e]), dd x hx]

end Saber.Thumb
