import Verif.Proof.Arm.Kara
/-!
# `kara_strd_mem_asm` with arguments at arbitrary places
-/
namespace Saber.Arm

/-- Objects: the operands, the result, the temporary array, and the stack. -/
def strdSize : Nat → Nat
  | 0 => 64
  | 1 => 64
  | 2 => 64
  | 3 => 64
  | _ => 30

/-- Coefficient `k` of the product of two polynomials with 64 coefficients modulo `Y^64+1`. -/
def neg64 (x y : Nat → BitVec 16) (k : Nat) : BitVec 16 :=
  lsum (fun t => x (t % 64) * y (t / 64)) (negP k) - lsum (fun t => x (t % 64) * y (t / 64)) (negN k)

/-- The behaviour of `kara_strd_mem_asm`, for operands, result, temporary array and stack at arbitrary places. -/
theorem kara_run_at (s : State conc) (ob off : Nat → Nat) (n : Nat) (x y : Nat → BitVec 16)
    (h0 : s.r0 = .a (.ptr (ob 0) (2 * off 0))) (h1 : s.r1 = .a (.ptr (ob 1) (2 * off 1))) (h2 : s.r2 = .a (.ptr (ob 2) (2 * off 2)))
    (h3 : s.r3 = .a (.ptr (ob 3) (2 * off 3))) (hsp : s.sp = .a (.ptr (ob 4) (60 + 2 * off 4))) (hlr : s.lr = .a (.code n))
    (hdef : ∀ r ∈ [Reg.r4, .r5, .r6, .r7, .r8, .r9, .sl, .fp], s.get r ≠ .undef)
    (hd : ∀ o o', o < o' → o' < 5 → ob o = ob o' → off o + strdSize o ≤ off o' ∨ off o' + strdSize o' ≤ off o)
    (m0 : ∀ i, i < 64 → conc.rd s.mem (ob 0) (off 0 + i) = some (.half (x i)))
    (m1 : ∀ i, i < 64 → conc.rd s.mem (ob 1) (off 1 + i) = some (.half (y i)))
    (m2 : ∀ i, i < 64 → ∃ z : BitVec 16, conc.rd s.mem (ob 2) (off 2 + i) = some (.half z))
    (m3 : ∀ i, i < 64 → ∃ z : BitVec 16, conc.rd s.mem (ob 3) (off 3 + i) = some (.half z))
    (m4 : ∀ i, i < 30 → (conc.rd s.mem (ob 4) (off 4 + i)).isSome) :
    ∃ s1, karaF conc s = some s1 ∧ s1.mem.map List.length = s.mem.map List.length ∧
      (∀ r ∈ [Reg.r0, .r1, .r3, .r4, .r5, .r6, .r7, .r8, .r9, .sl, .fp, .sp, .lr], s1.get r = s.get r) ∧ s1.pc = .a (.code n) ∧
      (∃ w, s1.ip = .w w ∧ clo w = neg64 x y 0) ∧
      (∀ i, i < 64 → conc.rd s1.mem (ob 2) (off 2 + i) = some (.half (neg64 x y i))) ∧
      (∀ o ∈ [0, 1, 3], ∀ i, i < 64 → ∃ z : BitVec 16, conc.rd s1.mem (ob o) (off o + i) = some (.half z)) ∧
      ∀ p j, (∀ o, o < 5 → ¬ (p = ob o ∧ off o ≤ j ∧ j < off o + strdSize o)) → conc.rd s1.mem p j = conc.rd s.mem p j := by
  have hc := karaCheck_ok
  unfold karaCheck at hc
  cases hk : karaF kdom karaK with
  | none => simp [hk] at hc
  | some s' =>
  simp only [hk] at hc
  obtain ⟨z2, hz2⟩ : ∃ z : Nat → BitVec 16, ∀ i, i < 64 → conc.rd s.mem (ob 2) (off 2 + i) = some (.half (z i)) :=
    ⟨fun i => if hi : i < 64 then (m2 i hi).choose else 0, fun i hi => by
      beta_reduce
      rw [dif_pos hi]
      exact (m2 i hi).choose_spec⟩
  obtain ⟨z3, hz3⟩ : ∃ z : Nat → BitVec 16, ∀ i, i < 64 → conc.rd s.mem (ob 3) (off 3 + i) = some (.half (z i)) :=
    ⟨fun i => if hi : i < 64 then (m3 i hi).choose else 0, fun i hi => by
      beta_reduce
      rw [dif_pos hi]
      exact (m3 i hi).choose_spec⟩
  let o : Nat → BitVec 16 := fun n => if n < 2000 then z2 (n - 1000) else z3 (n - 2000)
  let R : Sim kdom := kSim 64 (by decide) x y o
  let env : Nat → CVal := fun k => if 4 ≤ k ∧ k ≤ 11 then regEnv s.get k else .a (.code n)
  let X : Ctx :=
    { env := env
      ob := ob
      off := off
      dom := fun o i => o < 5 ∧ i < strdSize o
      inj := by
        intro o i o' i' a b e1 e2
        by_cases hlt : o < o'
        · have := hd o o' hlt b.1 e1
          omega
        · by_cases hgt : o' < o
          · have := hd o' o hgt a.1 e1.symm
            omega
          · have : o = o' := by omega
            subst this
            exact ⟨rfl, by omega⟩
      m0 := s.mem
      known := fun k => by
        show (if 4 ≤ k ∧ k ≤ 11 then regEnv s.get k else .a (.code n)) ≠ .undef
        split
        next hk =>
          obtain ⟨ha, hb⟩ := hk
          interval_cases k
          · exact hdef .r4 (by simp)
          · exact hdef .r5 (by simp)
          · exact hdef .r6 (by simp)
          · exact hdef .r7 (by simp)
          · exact hdef .r8 (by simp)
          · exact hdef .r9 (by simp)
          · exact hdef .sl (by simp)
          · exact hdef .fp (by simp)
        next => simp }
  have hm : R.RM X s.mem karaK.mem := by
    refine RM_of (X := X) (l := karaObj) fun ob p hp => ?_
    match ob with
    | 0 =>
      cases hp
      intro i hi
      have hi : i < 64 := hi
      refine ⟨⟨by decide, hi⟩, _, m0 i hi, _, rfl, ?_⟩
      exact ⟨[i], [], by simpa using hi, by simp, by simp [enc], rfl, le_refl _, by simp, by simp [lsum]⟩
    | 1 =>
      cases hp
      intro i hi
      have hi : i < 64 := hi
      refine ⟨⟨by decide, hi⟩, _, m1 i hi, _, rfl, ?_⟩
      exact ⟨[64 * i], [], by simp, by simp, by simp [enc], rfl, le_refl _, by simp, by simp [lsum]⟩
    | 2 =>
      cases hp
      intro i hi
      have hi : i < 64 := hi
      refine ⟨⟨by decide, hi⟩, _, hz2 i hi, _, rfl, ?_⟩
      show _ = o _
      simp only [o]
      rw [if_pos (by omega), Nat.add_sub_cancel_left]
    | 3 =>
      cases hp
      intro i hi
      have hi : i < 64 := hi
      refine ⟨⟨by decide, hi⟩, _, hz3 i hi, _, rfl, ?_⟩
      show _ = o _
      simp only [o]
      rw [if_neg (by omega), Nat.add_sub_cancel_left]
    | 4 =>
      cases hp
      intro i hi
      have hi : i < 30 := hi
      obtain ⟨c, hc⟩ := Option.isSome_iff_exists.mp (m4 i hi)
      exact ⟨⟨by decide, hi⟩, c, hc, by cases c <;> trivial⟩
    | n + 5 => simp [karaObj] at hp
  have hR : R.RS X s karaK := by
    refine ⟨fun r => ?_, hm, ⟨fun b h => ?_, fun b h => ?_⟩⟩
    · cases r
      case r0 => exact h0.trans (by show _ = Val.a (.ptr (ob 0) (0 + 2 * off 0)); rw [Int.zero_add])
      case r1 => exact h1.trans (by show _ = Val.a (.ptr (ob 1) (0 + 2 * off 1)); rw [Int.zero_add])
      case r2 => exact h2.trans (by show _ = Val.a (.ptr (ob 2) (0 + 2 * off 2)); rw [Int.zero_add])
      case r3 => exact h3.trans (by show _ = Val.a (.ptr (ob 3) (0 + 2 * off 3)); rw [Int.zero_add])
      case sp => exact hsp
      case lr => exact hlr
      case ip => trivial
      case pc => trivial
      all_goals rfl
    · cases h
    · cases h
  obtain ⟨s1, e1, e2⟩ := run_sim (fun _ => run_sim (fun _ => fsim_none _) 100 schoolbook_gen) 0 kara_strd_mem_asm _ _ _ hR hk
  unfold karaFinal at hc
  simp only [Bool.and_eq_true] at hc
  obtain ⟨c0, c1, c2, c3, c4, c5, c6, c7, c8, c9, c10, c11⟩ := hc
  have hpt (r : Reg) (o : Nat) (k : Int) (hr : isP (s'.get r) o k = true) (hs : s.get r = X.ptr o k) : s1.get r = s.get r := by
    have := e2.reg r
    rw [isP_eq hr] at this
    exact Eq.trans this hs.symm
  have hop (r : Reg) (k : Nat) (hr : isO (s'.get r) k = true) (hs : s.get r = env k) : s1.get r = s.get r := by
    have := e2.reg r
    rw [isO_eq hr] at this
    exact Eq.trans this hs.symm
  have hz (f : Nat → KH → Bool) (o : Nat) (hf : KM.allH s'.mem o f 64 = true) (i : Nat) (hi : i < 64) :
      ∃ z : BitVec 16, conc.rd s1.mem (ob o) (off o + i) = some (.half z) := by
    obtain ⟨z, q1, -⟩ := RM_allH e2.mem hf hi
    exact ⟨z, q1⟩
  have hxy {i : Nat} (hi : i < 64) {h : BitVec 16} {k : KH} (f1 : chkXY (enc KB (negP i)) (enc KB (negN i)) k = true) (f2 : R.RH h k) :
      h = neg64 x y i :=
    chkXY_ok (SH := 64) (x := x) (y := y) (o := o) (by rw [negP, List.length_map, List.length_range]; omega)
      (by rw [negN, List.length_map, List.length_range]; omega) f1 f2
  refine ⟨s1, e1, e2.mem.len, ?_, ?_, ?_, fun i hi => ?_, ?_, fun p j hpj => ?_⟩
  · unfold saved at c6
    simp only [Bool.and_eq_true] at c6
    obtain ⟨⟨⟨⟨⟨⟨⟨d4, d5⟩, d6⟩, d7⟩, d8⟩, d9⟩, d10⟩, d11⟩ := c6
    intro r hr
    simp only [List.mem_cons, List.not_mem_nil, or_false] at hr
    rcases hr with rfl | rfl | rfl | rfl | rfl | rfl | rfl | rfl | rfl | rfl | rfl | rfl | rfl
    · exact hpt _ 0 0 c7 (hR.reg .r0)
    · exact hpt _ 1 0 c8 (hR.reg .r1)
    · exact hpt _ 3 0 c9 (hR.reg .r3)
    · exact hop _ 4 d4 rfl
    · exact hop _ 5 d5 rfl
    · exact hop _ 6 d6 rfl
    · exact hop _ 7 d7 rfl
    · exact hop _ 8 d8 rfl
    · exact hop _ 9 d9 rfl
    · exact hop _ 10 d10 rfl
    · exact hop _ 11 d11 rfl
    · exact hpt _ 4 60 c4 hsp
    · exact hop _ 14 c10 hlr
  · have := e2.reg .pc
    rw [show s'.get .pc = _ from isO_eq c5] at this
    exact this
  · have hip := e2.reg .ip
    revert hip c11
    show chkIp (s'.get .ip) = true → _
    cases s'.get .ip with
    | w w =>
      intro hc ⟨v, h1, h2⟩
      exact ⟨v, h1, hxy (by decide) hc (R.lo h2)⟩
    | a => intro hc; cases hc
    | undef => intro hc; cases hc
  · obtain ⟨z, q1, kk, q2, q3⟩ := RM_allH e2.mem c2 hi
    rw [← hxy hi q2 q3]
    exact q1
  · intro o ho
    simp only [List.mem_cons, List.not_mem_nil, or_false] at ho
    rcases ho with rfl | rfl | rfl
    · exact hz _ 0 c0
    · exact hz _ 1 c1
    · exact hz _ 3 c3
  · refine e2.mem.frame p j fun o i hdom ho => ?_
    have ho : ob o = p := ho
    obtain ⟨ho5, hi⟩ : o < 5 ∧ i < strdSize o := hdom
    show off o + i ≠ j
    intro hj
    exact hpj o ho5 ⟨ho.symm, by omega, by omega⟩

end Saber.Arm
